import Verif.Spec.SupcrtDatabase
import Verif.Lemmas.Database
import Verif.Lemmas.Strings
import Verif.Model.RegistryTables
import Verif.Theorems.SupcrtMineral

/-!
# C82: loading SUPCRT databases
-/

namespace Verif.SupcrtDb

open Chem Database

/-! ### Reading one entry -/

theorem textAt_child (m : Option Xml) (t : Str) (path : List Str) :
    (m.bind fun n => textAt n (t :: path)) = (child m t).bind fun n => textAt n path := by
  cases m with
  | none => rfl
  | some n =>
    simp only [Option.bind_some, textAt, child]
    generalize n.children.find? (fun c => decide (c.tag = t)) = o
    cases o <;> rfl

theorem textOf_child (n : Xml) (t : Str) : textOf (child (some n) t) = textAt n [t] :=
  (textAt_child (some n) t []).symm

theorem textOf_hkf (n : Xml) (t : Str) : textOf (child (hkfNode (some n)) t) = textAt n (hkf t) := by
  have h1 := textAt_child (some n) c!"Thermo" [c!"HKF", t]
  have h2 := textAt_child (child (some n) c!"Thermo") c!"HKF" [t]
  have h3 := textAt_child (child (child (some n) c!"Thermo") c!"HKF") t []
  exact ((h1.trans h2).trans h3).symm

theorem textOf_range (n : Xml) (i : Nat) (t : Str) :
    textOf (child (child (hkfNode (some n)) (rangeTag i)) t) = textAt n (inRange i t) := by
  have h1 := textAt_child (some n) c!"Thermo" [c!"HKF", rangeTag i, t]
  have h2 := textAt_child (child (some n) c!"Thermo") c!"HKF" [rangeTag i, t]
  have h3 := textAt_child (child (child (some n) c!"Thermo") c!"HKF") (rangeTag i) [t]
  have h4 := textAt_child (child (child (child (some n) c!"Thermo") c!"HKF") (rangeTag i)) t []
  exact (((h1.trans h2).trans h3).trans h4).symm

/-- What is read for a number: the one given, or the default. -/
theorem asDouble_top (rd : Reader) (n : Xml) (t : Str) (x : Rat) : asDouble rd (some n) t x = (numberAt rd n [t]).getD x := by
  unfold asDouble numberAt
  rw [textOf_child]
  cases textAt n [t] <;> rfl

theorem asDouble_hkf (rd : Reader) (n : Xml) (t : Str) (x : Rat) :
    asDouble rd (hkfNode (some n)) t x = (numberAt rd n (hkf t)).getD x := by
  unfold asDouble numberAt
  rw [textOf_hkf]
  cases textAt n (hkf t) <;> rfl

theorem asDouble_range (rd : Reader) (n : Xml) (i : Nat) (t : Str) (x : Rat) :
    asDouble rd (child (hkfNode (some n)) (rangeTag i)) t x = (numberAt rd n (inRange i t)).getD x := by
  unfold asDouble numberAt
  rw [textOf_range]
  cases textAt n (inRange i t) <;> rfl

theorem asInt_hkf (rd : Reader) (n : Xml) (t : Str) :
    asInt rd (hkfNode (some n)) t = ((textAt n (hkf t)).map rd.asInt).getD 999999 := by
  unfold asInt
  rw [textOf_hkf]
  cases textAt n (hkf t) <;> rfl

theorem asText_top (n : Xml) (t : Str) : asText (some n) t = (textAt n [t]).getD c!"999999" := by
  unfold asText
  rw [textOf_child]
  cases textAt n [t] <;> rfl

/-- The words of a composition. -/
theorem split_compositionText (l : List (Str × Str)) (h : ∀ p ∈ l, Plain p.1 ∧ Plain p.2) :
    Strings.split (compositionText l) c!"()" = l.flatMap fun p => [p.1, p.2] := by
  induction l with
  | nil => exact Strings.split_nil _
  | cons p l ih =>
    obtain ⟨⟨h1, h2, h3⟩, h4, h5, h6⟩ := h p (by simp)
    have hd : ∀ w : Str, '(' ∉ w → ')' ∉ w → ∀ c ∈ w, c ∉ c!"()" := by
      intro w ha hb c hc hd
      rcases List.mem_cons.1 hd with rfl | hd
      · exact ha hc
      · rw [List.mem_singleton] at hd; subst hd; exact hb hc
    have e1 : ('(' : Char) ∈ (c!"()" : Str) := by decide
    have e2 : (')' : Char) ∈ (c!"()" : Str) := by decide
    unfold compositionText
    rw [Strings.split_word _ _ _ h1 (hd _ h2 h3) (by simp only [List.head?_cons, Option.mem_some_iff]; rintro c rfl; exact e1),
      Strings.split_cons_delim _ _ _ e1,
      Strings.split_word _ _ _ h4 (hd _ h5 h6) (by simp only [List.head?_cons, Option.mem_some_iff]; rintro c rfl; exact e2),
      Strings.split_cons_delim _ _ _ e2, ih fun q hq => h q (List.mem_cons_of_mem _ hq)]
    rfl

theorem pairUp_flatMap (rd : Reader) (l : List (Str × Str)) :
    pairUp rd (l.flatMap fun p => [p.1, p.2]) = .ok (l.map fun p => (p.1, rd.atof p.2)) := by
  induction l with
  | nil => rfl
  | cons p l ih =>
    simp only [List.flatMap_cons, List.cons_append, List.nil_append, pairUp, ih, Res.bind_ok', List.map_cons]

theorem composition_ok (rd : Reader) (elementOf : Str → Option Element) (l : List (Str × Str)) (els : List (Element × Rat))
    (h : List.Forall₂ (fun p q => elementOf p.1 = some q.1 ∧ rd.atof p.2 = q.2) l els) :
    composition elementOf (l.map fun p => (p.1, rd.atof p.2)) = .ok els := by
  induction h with
  | nil => rfl
  | cons h1 _ ih => simp only [List.map_cons, composition, h1.1, ih, Res.bind_ok', h1.2]

/-- The loop over the ranges of temperature. -/
theorem parseRange_loop (rd : Reader) (hk : Option Xml) (d : MineralData) (k : Nat) (hk' : k ≤ d.nptrans + 1)
    (ha : d.a = [] ∧ d.b = [] ∧ d.c = [] ∧ d.Ttr = [] ∧ d.Htr = [] ∧ d.Vtr = [] ∧ d.dPdTtr = []) :
    (List.range k).foldl (parseRange rd hk) d =
      { d with
        a := (List.range k).map fun i => asDouble rd (child hk (rangeTag i)) c!"a"
        b := (List.range k).map fun i => asDouble rd (child hk (rangeTag i)) c!"b"
        c := (List.range k).map fun i => asDouble rd (child hk (rangeTag i)) c!"c"
        Ttr := (List.range (min k d.nptrans)).map fun i => asDouble rd (child hk (rangeTag i)) c!"Ttr"
        Htr := (List.range (min k d.nptrans)).map fun i => asDouble rd (child hk (rangeTag i)) c!"Htr" 0
        Vtr := (List.range (min k d.nptrans)).map fun i => asDouble rd (child hk (rangeTag i)) c!"Vtr" 0
        dPdTtr := (List.range (min k d.nptrans)).map fun i => asDouble rd (child hk (rangeTag i)) c!"dPdTtr" 0 } := by
  induction k with
  | zero =>
    obtain ⟨h1, h2, h3, h4, h5, h6, h7⟩ := ha
    cases d
    simp_all
  | succ k ih =>
    rw [List.range_succ, List.foldl_append, ih (by omega)]
    simp only [List.foldl_cons, List.foldl_nil, parseRange]
    by_cases hlt : k < d.nptrans
    · have e1 : min (k + 1) d.nptrans = k + 1 := by omega
      have e2 : min k d.nptrans = k := by omega
      rw [if_pos hlt, e1, e2]
      simp only [List.range_succ, List.map_append, List.map_cons, List.map_nil]
    · have e1 : min (k + 1) d.nptrans = min k d.nptrans := by omega
      rw [if_neg hlt, e1]
      simp only [List.map_append, List.map_cons, List.map_nil]

/-- What is read for a mineral. -/
theorem parseMineral_eq (rd : Reader) (node : Option Xml) (hn : 0 ≤ asInt rd (hkfNode node) c!"NumPhaseTrans") :
    ∃ d, parseMineral rd node = .ok d ∧ d.name = asText node c!"Name" ∧ d.Gf = asDouble rd (hkfNode node) c!"Gf" ∧
      d.Hf = asDouble rd (hkfNode node) c!"Hf" ∧ d.Sr = asDouble rd (hkfNode node) c!"Sr" ∧
      d.Vr = asDouble rd (hkfNode node) c!"Vr" ∧ d.Tmax = asDouble rd (hkfNode node) c!"Tmax" ∧
      (d.nptrans : Int) = asInt rd (hkfNode node) c!"NumPhaseTrans" ∧
      (d.nptrans = 0 → d.a = [asDouble rd (hkfNode node) c!"a"] ∧ d.b = [asDouble rd (hkfNode node) c!"b"] ∧
        d.c = [asDouble rd (hkfNode node) c!"c"]) ∧
      (d.nptrans ≠ 0 →
        d.a = (List.range (d.nptrans + 1)).map (fun i => asDouble rd (child (hkfNode node) (rangeTag i)) c!"a") ∧
        d.b = (List.range (d.nptrans + 1)).map (fun i => asDouble rd (child (hkfNode node) (rangeTag i)) c!"b") ∧
        d.c = (List.range (d.nptrans + 1)).map (fun i => asDouble rd (child (hkfNode node) (rangeTag i)) c!"c")) ∧
      d.Ttr = (List.range d.nptrans).map (fun i => asDouble rd (child (hkfNode node) (rangeTag i)) c!"Ttr") ∧
      d.Htr = (List.range d.nptrans).map (fun i => asDouble rd (child (hkfNode node) (rangeTag i)) c!"Htr" 0) ∧
      d.Vtr = (List.range d.nptrans).map (fun i => asDouble rd (child (hkfNode node) (rangeTag i)) c!"Vtr" 0) ∧
      d.dPdTtr = (List.range d.nptrans).map (fun i => asDouble rd (child (hkfNode node) (rangeTag i)) c!"dPdTtr" 0) := by
  obtain ⟨k, hk⟩ := Int.eq_ofNat_of_zero_le hn
  unfold parseMineral
  simp only [if_neg (not_lt.2 hn)]
  rw [hk]
  simp only [Int.toNat_natCast]
  by_cases h0 : k = 0
  · subst h0
    rw [if_pos rfl]
    exact ⟨_, rfl, rfl, rfl, rfl, rfl, rfl, rfl, rfl, fun _ => ⟨rfl, rfl, rfl⟩, fun h => absurd rfl h, rfl, rfl, rfl, rfl⟩
  · rw [if_neg h0]
    refine ⟨_, rfl, ?_⟩
    rw [parseRange_loop rd (hkfNode node) _ (k + 1) (le_refl _) ⟨rfl, rfl, rfl, rfl, rfl, rfl, rfl⟩]
    have e : min (k + 1) k = k := by omega
    simp only [e]
    exact ⟨trivial, trivial, trivial, trivial, trivial, trivial, trivial, fun h => absurd h h0,
      fun _ => ⟨trivial, trivial, trivial⟩, trivial, trivial, trivial, trivial⟩

/-- An entry that describes a species is read as that species. -/
theorem parseSpecies_describes (rd : Reader) (elementOf : Str → Option Element) (n : Xml) (s : Species) (d : Data)
    (h : Describes rd elementOf n s d) : parseSpecies rd elementOf (some n) = .ok (s, d) := by
  obtain ⟨l, hl, hp, hf⟩ := h.elements
  obtain ⟨type, ht, hk⟩ := h.kind
  have hE : parseElements rd (some n) = .ok (l.map fun p => (p.1, rd.atof p.2)) := by
    unfold parseElements
    rw [asText_top, hl, Option.getD_some, split_compositionText l hp, pairUp_flatMap]
  have hname : asText (some n) c!"Name" = s.rawName := by rw [asText_top, h.name]; rfl
  have hform : asText (some n) c!"Formula" = s.formula := by rw [asText_top, h.formula]; rfl
  have htype : asLowercaseText (some n) c!"Type" = type.map Char.toLower := by
    unfold asLowercaseText; rw [asText_top, ht]; rfl
  have hstate : parseAggregateState (some n) = s.rawState := by
    unfold parseAggregateState
    rw [htype]
    cases d with
    | solvent => obtain ⟨h1, -, h3⟩ := hk; rw [h1, h3]; rfl
    | solute d => obtain ⟨h1, -, h3, -⟩ := hk; rw [h1, h3]; rfl
    | gas d => obtain ⟨⟨h1, h3⟩ | ⟨h1, h3⟩, -⟩ := hk <;> rw [h1, h3] <;> rfl
    | mineral d => obtain ⟨h1, h3, -⟩ := hk; rw [h1, h3]; rfl
  have hparams : parseParams rd (some n) = .ok d := by
    unfold parseParams
    rw [htype, hform]
    cases d with
    | solvent =>
      obtain ⟨h1, h2, -⟩ := hk
      rw [h1, h2]; rfl
    | solute d =>
      obtain ⟨h1, h2, -, h4, h5⟩ := hk
      rw [h1]
      simp only [true_and, if_neg h2, if_true]
      obtain ⟨e1, e2, e3, e4, e5, e6, e7, e8, e9, e10, e11⟩ := h5
      cases d
      simp only at e1 e2 e3 e4 e5 e6 e7 e8 e9 e10 e11 h4
      simp only [parseSolute, asDouble_top, asDouble_hkf, e1, e2, e3, e4, e5, e6, e7, e8, e9, e10, e11, Option.getD_some, hname, h4]
    | gas d =>
      obtain ⟨h1, h4, h5⟩ := hk
      have : type.map Char.toLower ≠ c!"aqueous" ∧ type.map Char.toLower ≠ c!"mineral" := by
        rcases h1 with ⟨h1, -⟩ | ⟨h1, -⟩ <;> rw [h1] <;> decide
      obtain ⟨e1, e2, e3, e4, e5, e6, e7⟩ := h5
      cases d
      simp only at e1 e2 e3 e4 e5 e6 e7 h4
      simp only [if_neg this.2, this.1, false_and, if_false, ite_self]
      simp only [parseGas, asDouble_hkf, e1, e2, e3, e4, e5, e6, e7, Option.getD_some, hname, h4]
    | mineral d =>
      obtain ⟨h1, -, h4, h5⟩ := hk
      rw [h1]
      have hN : asInt rd (hkfNode (some n)) c!"NumPhaseTrans" = (d.nptrans : Int) := by
        rw [asInt_hkf, h5.nptrans]; rfl
      obtain ⟨d', hd', i1, i2, i3, i4, i5, i6, i7, i8, i9, i10, i11, i12, i13⟩ :=
        parseMineral_eq rd (some n) (by rw [hN]; exact Int.natCast_nonneg _)
      have hne : ¬ ((c!"mineral" : Str) = c!"aqueous") ∧ ¬ ((c!"mineral" : Str) = c!"gaseous") := by decide
      simp only [if_neg hne.2, hne.1, false_and, if_false, if_true, hd', Res.bind_ok']
      obtain ⟨l1, l2, l3, l4, l5, l6, l7⟩ := h5.lengths
      have hnp : d'.nptrans = d.nptrans := by rw [hN] at i7; exact_mod_cast i7
      have eqRange : ∀ (m : Nat) (L : List Rat) (f : Nat → Rat), L.length = m → (∀ (i : Nat), i < m → L[i]? = some (f i)) →
          (List.range m).map f = L := by
        intro m L f hL hi
        apply List.ext_getElem?
        intro i
        by_cases him : i < m
        · rw [hi i him]; simp [him]
        · rw [List.getElem?_eq_none (by simp; omega), List.getElem?_eq_none (by omega)]
      have getD_of : ∀ (o : Option Rat) (L : List Rat) (i : Nat) (x : Rat), o = L[i]? → i < L.length → L[i]? = some (o.getD x) := by
        intro o L i x ho hi
        rw [ho, List.getElem?_eq_getElem hi]; rfl
      have habc : d'.a = d.a ∧ d'.b = d.b ∧ d'.c = d.c := by
        by_cases h0 : d.nptrans = 0
        · obtain ⟨j1, j2, j3⟩ := i8 (by rw [hnp, h0])
          obtain ⟨k1, k2, k3⟩ := h5.single h0
          rw [h0] at l1 l2 l3
          have one : ∀ (L : List Rat) (o : Option Rat) (x : Rat), L.length = 0 + 1 → o = L[0]? → [o.getD x] = L := by
            intro L o x hL ho
            obtain ⟨y, rfl⟩ := List.length_eq_one_iff.1 hL
            rw [ho]; rfl
          rw [j1, j2, j3, asDouble_hkf, asDouble_hkf, asDouble_hkf]
          exact ⟨one _ _ _ l1 k1, one _ _ _ l2 k2, one _ _ _ l3 k3⟩
        · obtain ⟨j1, j2, j3⟩ := i9 (by rw [hnp]; exact h0)
          have hr := h5.ranges h0
          rw [hnp] at j1 j2 j3
          rw [j1, j2, j3]
          simp only [asDouble_range]
          refine ⟨eqRange _ _ _ l1 fun i hi => getD_of _ _ _ _ (hr i (by omega)).1 (by omega),
            eqRange _ _ _ l2 fun i hi => getD_of _ _ _ _ (hr i (by omega)).2.1 (by omega),
            eqRange _ _ _ l3 fun i hi => getD_of _ _ _ _ (hr i (by omega)).2.2 (by omega)⟩
      have htr : d'.Ttr = d.Ttr ∧ d'.Htr = d.Htr ∧ d'.Vtr = d.Vtr ∧ d'.dPdTtr = d.dPdTtr := by
        have hr := h5.transitions
        rw [i10, i11, i12, i13, hnp]
        simp only [asDouble_range]
        exact ⟨eqRange _ _ _ l4 fun i hi => getD_of _ _ _ _ (hr i hi).1 (by omega),
          eqRange _ _ _ l5 fun i hi => (hr i hi).2.1.symm, eqRange _ _ _ l6 fun i hi => (hr i hi).2.2.1.symm,
          eqRange _ _ _ l7 fun i hi => (hr i hi).2.2.2.symm⟩
      rw [asDouble_hkf, h5.Gf, Option.getD_some] at i2
      rw [asDouble_hkf, h5.Hf, Option.getD_some] at i3
      rw [asDouble_hkf, h5.Sr, Option.getD_some] at i4
      rw [asDouble_hkf, h5.Vr, Option.getD_some] at i5
      rw [asDouble_hkf, h5.Tmax, Option.getD_some] at i6
      have : d' = d := by
        cases d
        cases d'
        simp_all
      rw [this]
  unfold parseSpecies
  rw [hE, Res.bind_ok', composition_ok rd elementOf l s.elements hf, Res.bind_ok', hparams, Res.bind_ok', hname, hform, hstate,
    asDouble_top, ← h.charge]
  obtain ⟨r1, r2, r3⟩ := h.rest
  cases s
  simp only at r1 r2 r3
  subst r1
  subst r2
  subst r3
  rfl

/-! ### Loading -/

theorem addNodes_ok (rd : Reader) (elementOf : Str → Option Element) (nodes : List Xml) (sds : List (Species × Data))
    (h : List.Forall₂ (fun n p => Describes rd elementOf n p.1 p.2) nodes sds) (db : Db) (ds : List Data) (acc : List Species)
    (hi : Inv db acc) :
    ∃ db', addNodes rd elementOf (db, ds) nodes = .ok (db', ds ++ sds.map Prod.snd) ∧ Inv db' (acc ++ sds.map Prod.fst) := by
  induction h generalizing db ds acc with
  | nil => exact ⟨db, by simp [addNodes], by simpa using hi⟩
  | @cons n p nodes sds h1 _ ih =>
    obtain ⟨s, d⟩ := p
    have hst : s.rawState ≠ .Undefined := by
      obtain ⟨type, -, hk⟩ := h1.kind
      cases d with
      | solvent => rw [hk.2.2]; decide
      | solute d => rw [hk.2.2.1]; decide
      | gas d => obtain ⟨⟨-, h3⟩ | ⟨-, h3⟩, -⟩ := hk <;> rw [h3] <;> decide
      | mineral d => rw [hk.2.1]; decide
    obtain ⟨db1, hdb1⟩ := addSpecies_ok db s hst
    obtain ⟨db', h2, h3⟩ := ih db1 (ds ++ [d]) (acc ++ [s]) (addSpecies_inv db db1 acc s hi hdb1)
    refine ⟨db', ?_, ?_⟩
    · simp only [addNodes, parseSpecies_describes rd elementOf n s d h1, Res.bind_ok', hdb1, h2, List.map_cons,
        List.append_assoc, List.singleton_append]
    · simpa using h3

theorem entries_iff (doc : Xml) (nodes : List Xml) : Entries doc nodes ↔ nodes = speciesNodes doc := by
  have key : ∀ l : List Xml, (∃ first d rest, l = first ++ d :: rest ∧ (∀ c ∈ first, c.tag ≠ c!"Database") ∧ d.tag = c!"Database" ∧
      nodes = d.children.filter (fun c => c.tag = c!"Species")) ∨ (∀ c ∈ l, c.tag ≠ c!"Database") ∧ nodes = [] ↔
      nodes = match l.find? (fun c => c.tag = c!"Database") with
        | none => []
        | some d => d.children.filter fun c => c.tag = c!"Species" := by
    intro l
    cases hf : l.find? (fun c => decide (c.tag = c!"Database")) with
    | none =>
      rw [List.find?_eq_none] at hf
      simp only [decide_eq_true_eq] at hf
      constructor
      · rintro (⟨first, d, rest, rfl, -, hd, -⟩ | ⟨-, h⟩)
        · exact absurd hd (hf d (by simp))
        · exact h
      · exact fun h => Or.inr ⟨hf, h⟩
    | some d =>
      rw [List.find?_eq_some_iff_append] at hf
      simp only [decide_eq_true_eq, Bool.not_eq_true', decide_eq_false_iff_not] at hf
      obtain ⟨hd, first, rest, rfl, hfirst⟩ := hf
      constructor
      · rintro (⟨first', d', rest', he, hfirst', hd', h⟩ | ⟨h, -⟩)
        · have : d' = d := by
            rw [List.append_eq_append_iff] at he
            rcases he with ⟨l', h1, h2⟩ | ⟨l', h1, h2⟩
            · cases l' with
              | nil => simp at h2; exact h2.1.symm
              | cons x l' => simp only [List.cons_append, List.cons.injEq] at h2; exact absurd hd (h2.1 ▸ hfirst' x (by rw [h1]; simp))
            · cases l' with
              | nil => simp at h2; exact h2.1
              | cons x l' => simp only [List.cons_append, List.cons.injEq] at h2; exact absurd hd' (h2.1 ▸ hfirst x (by rw [h1]; simp))
          rw [h, this]
        · exact absurd hd (h d (by simp))
      · exact fun h => Or.inl ⟨first, d, rest, rfl, hfirst, hd, h⟩
  unfold Entries speciesNodes child
  exact key doc.children

/-- C82: when every entry of a document describes a species, loading succeeds; the database has exactly these species in
the order of the document, each with exactly the parameters that are written, the given formula, composition, charge
and aggregate state, and renamed only if the name is already taken; names and element symbols are unique. -/
theorem C82_contents (rd : Reader) (elementOf : Str → Option Element) (doc : Xml) (nodes : List Xml)
    (hn : Entries doc nodes) (sds : List (Species × Data))
    (h : List.Forall₂ (fun n p => Describes rd elementOf n p.1 p.2) nodes sds) :
    ∃ db, parseDatabase rd elementOf doc = .ok (db, sds.map Prod.snd) ∧
      db.species.length = sds.length ∧
      (∀ (i : Nat) (given : Species × Data) (stored : Species), sds[i]? = some given → db.species[i]? = some stored →
        StoredAs ((db.species.take i).map Species.name) given.1 stored) ∧
      (db.species.map Species.name).Nodup ∧ (db.elements.map (·.symbol)).Nodup ∧
      ∀ s ∈ db.species, ∀ p ∈ s.elements, ∃ e ∈ db.elements, e.symbol = p.1.symbol := by
  rw [(entries_iff doc nodes).1 hn] at h
  obtain ⟨db, h1, hi⟩ := addNodes_ok rd elementOf (speciesNodes doc) sds h {} [] [] inv_empty
  simp only [List.nil_append] at h1 hi
  have hlen := hi.len
  rw [List.length_map] at hlen
  refine ⟨db, h1, hlen.symm, ?_, hi.names, hi.el.nodup, ?_⟩
  · intro i g t hg ht
    obtain ⟨h2, rfl⟩ := List.getElem?_eq_some_iff.1 hg
    obtain ⟨h3, rfl⟩ := List.getElem?_eq_some_iff.1 ht
    have := hi.stored i (by simpa using h2) h3
    simpa using this
  · intro s hs p hp
    obtain ⟨e, he, hes⟩ := List.mem_map.1 (hi.cover s hs p hp)
    exact ⟨e, he, hes⟩

/-! ### Tables of minerals -/

/-- C82: whatever an entry contains, the tables of a loaded mineral have the lengths its number of transitions asks for, so
its standard model never reads past their end. -/
theorem C82_mineral_tables (rd : Reader) (n : Xml) (d : MineralData) (h : parseParams rd (some n) = .ok (.mineral d))
    (water : ℝ × ℝ → Res Water.ThermoState) (T P : ℝ) : (Data.mineral d).props water T P ≠ .ub := by
  have hd : parseMineral rd (some n) = .ok d := by
    unfold parseParams at h
    simp only at h
    split at h
    · cases h
    split at h
    · cases h
    split at h
    · cases h
    split at h
    · cases hm : parseMineral rd (some n) <;> rw [hm] at h <;> simp only [Res.bind_ok', Res.bind_throw', Res.bind_ub', reduceCtorEq] at h
      cases h; rfl
    · cases h
  have hlen : d.a.length = d.nptrans + 1 ∧ d.b.length = d.nptrans + 1 ∧ d.c.length = d.nptrans + 1 ∧
      d.Ttr.length = d.nptrans ∧ d.Htr.length = d.nptrans ∧ d.Vtr.length = d.nptrans ∧ d.dPdTtr.length = d.nptrans := by
    by_cases hn : 0 ≤ asInt rd (hkfNode (some n)) c!"NumPhaseTrans"
    · obtain ⟨d', hd', i1, i2, i3, i4, i5, i6, i7, i8, i9, i10, i11, i12, i13⟩ := parseMineral_eq rd (some n) hn
      rw [hd] at hd'; cases hd'
      refine ⟨?_, ?_, ?_, by rw [i10]; simp, by rw [i11]; simp, by rw [i12]; simp, by rw [i13]; simp⟩ <;>
        by_cases h0 : d.nptrans = 0
      · rw [(i8 h0).1, h0]; rfl
      · rw [(i9 h0).1]; simp
      · rw [(i8 h0).2.1, h0]; rfl
      · rw [(i9 h0).2.1]; simp
      · rw [(i8 h0).2.2, h0]; rfl
      · rw [(i9 h0).2.2]; simp
    · unfold parseMineral at hd
      simp only [if_pos (not_le.1 hn)] at hd
      cases hd
  obtain ⟨l1, l2, l3, l4, l5, l6, l7⟩ := hlen
  simp only [Data.props, Data.params, Supcrt.props, Supcrt.mineralProps, Supcrt.checkTemperature]
  split
  · simp
  · rename_i hT
    have hwf : (Supcrt.Mineral.toSI ⟨d.name, d.Gf, d.Hf, d.Sr, d.Vr, d.nptrans, d.a.map (fun x : ℚ => (x : ℝ)), d.b.map (fun x : ℚ => (x : ℝ)),
      d.c.map (fun x : ℚ => (x : ℝ)), d.Ttr.map (fun x : ℚ => (x : ℝ)), d.Htr.map (fun x : ℚ => (x : ℝ)),
      d.Vtr.map (fun x : ℚ => (x : ℝ)), d.dPdTtr.map (fun x : ℚ => (x : ℝ)), d.Tmax⟩).WellFormed := by
      simp only [StandardModels.Mineral.WellFormed, Supcrt.Mineral.toSI, List.length_map]
      omega
    have hr := (Supcrt.toSI_InRange _ T P).1 (StandardModels.inRange_of_wellFormed hwf T P)
    simp only [Res.bind_ok', if_pos hr]
    simp

/-! ### Missing data -/

/-- C82, missing data: a number that is missing from an entry is not reported; it is replaced by 999999, so that for
instance the formation energies of the mineral become 999999 cal/mol. -/
theorem C82_missing_wrong (rd : Reader) (n : Xml) (d : MineralData) (h : parseMineral rd (some n) = .ok d)
    (hG : numberAt rd n (hkf c!"Gf") = none) (hH : numberAt rd n (hkf c!"Hf") = none) : d.Gf = 999999 ∧ d.Hf = 999999 := by
  by_cases hn : 0 ≤ asInt rd (hkfNode (some n)) c!"NumPhaseTrans"
  · obtain ⟨d', hd', -, i2, i3, -⟩ := parseMineral_eq rd (some n) hn
    rw [h] at hd'; cases hd'
    rw [asDouble_hkf, hG] at i2
    rw [asDouble_hkf, hH] at i3
    exact ⟨i2, i3⟩
  · unfold parseMineral at h
    simp only [if_pos (not_le.1 hn)] at h
    cases h

/-- C82, missing charge: a solute without a charge is a neutral species, but its standard model is that of an ion of
charge 999999. -/
theorem C82_charge_wrong (rd : Reader) (elementOf : Str → Option Element) (n : Xml) (s : Species) (d : SoluteData)
    (h : parseSpecies rd elementOf (some n) = .ok (s, .solute d)) (hc : textAt n [c!"Charge"] = none) :
    s.charge = 0 ∧ d.charge = 999999 := by
  unfold parseSpecies at h
  cases h1 : parseElements rd (some n) <;> rw [h1] at h <;> simp only [Res.bind_ok', Res.bind_throw', Res.bind_ub', reduceCtorEq] at h
  rename_i pairs
  cases h2 : composition elementOf pairs <;> rw [h2] at h <;> simp only [Res.bind_ok', Res.bind_throw', Res.bind_ub', reduceCtorEq] at h
  cases h3 : parseParams rd (some n) <;> rw [h3] at h <;> simp only [Res.bind_ok', Res.bind_throw', Res.bind_ub', reduceCtorEq] at h
  simp only [Res.ok.injEq, Prod.mk.injEq] at h
  obtain ⟨rfl, rfl⟩ := h
  have hno : numberAt rd n [c!"Charge"] = none := by unfold numberAt; rw [hc]; rfl
  refine ⟨by simp only [asDouble_top, hno, Option.getD_none], ?_⟩
  unfold parseParams at h3
  simp only at h3
  split at h3
  · cases h3
  split at h3
  · cases h3
    simp only [parseSolute, asDouble_top, hno, Option.getD_none]
  split at h3
  · cases h3
  split at h3
  · cases hm : parseMineral rd (some n) <;> rw [hm] at h3 <;> simp [reduceCtorEq] at h3
  · cases h3

/-- C82, missing composition: without `Elements` the behaviour is undefined, a read past the end of a vector. -/
theorem C82_elements_wrong (rd : Reader) (elementOf : Str → Option Element) (n : Xml)
    (h : textAt n [c!"Elements"] = none) : parseSpecies rd elementOf (some n) = .ub := by
  have : parseElements rd (some n) = .ub := by
    unfold parseElements
    rw [asText_top, h, Option.getD_none]
    have : Strings.split c!"999999" c!"()" = [c!"999999"] := by
      have := Strings.split_word c!"()" c!"999999" [] (by decide) (by decide) (by simp)
      rwa [List.append_nil, Strings.split_nil] at this
    rw [this]; rfl
  unfold parseSpecies
  rw [this, Res.bind_ub']

/-- C82, unknown elements: an entry with an element that is not registered makes loading fail. -/
theorem C82_unknown_element (rd : Reader) (elementOf : Str → Option Element) (n : Xml) (l : List (Str × Str))
    (ht : textAt n [c!"Elements"] = some (compositionText l)) (hp : ∀ p ∈ l, Plain p.1 ∧ Plain p.2)
    (hu : ∃ p ∈ l, elementOf p.1 = none) : parseSpecies rd elementOf (some n) = .throw := by
  have hE : parseElements rd (some n) = .ok (l.map fun p => (p.1, rd.atof p.2)) := by
    unfold parseElements
    rw [asText_top, ht, Option.getD_some, split_compositionText l hp, pairUp_flatMap]
  have hC : composition elementOf (l.map fun p => (p.1, rd.atof p.2)) = .throw := by
    clear hE ht hp
    obtain ⟨p, hp, hu⟩ := hu
    induction l with
    | nil => simp at hp
    | cons q l ih =>
      simp only [List.map_cons, composition]
      cases hq : elementOf q.1 with
      | none => rfl
      | some e =>
        simp only
        rcases List.mem_cons.1 hp with rfl | hp
        · rw [hu] at hq; cases hq
        · rw [ih hp]; rfl
  unfold parseSpecies
  rw [hE, Res.bind_ok', hC, Res.bind_throw']

/-! ### Names, locale -/

/-- C82, names: an embedded database is loaded only under one of the four names. -/
theorem C82_names (env : Env) (name locale : Str)
    (h : name ∉ [c!"supcrt98.xml", c!"supcrt07.xml", c!"supcrt98-organics.xml", c!"supcrt07-organics.xml"]) :
    (withName env name locale).2 = .throw := by
  have h' : name ∉ embeddedNames := h
  simp only [withName, changeLocale, content, if_pos h', Res.bind_throw']

/-- C82, failures: loading an embedded database throws if it is not there, is empty or is not XML, and so does loading a file that
is not there or is not XML. -/
theorem C82_failures (env : Env) (name locale : Str) :
    (env.resource (c!"databases/supcrt/" ++ name) = none ∨ env.resource (c!"databases/supcrt/" ++ name) = some [] ∨
      (∃ t, env.resource (c!"databases/supcrt/" ++ name) = some t ∧ env.parse t = none) → (withName env name locale).2 = .throw) ∧
    (env.file name = none → (fromFile env name locale).2 = .throw) := by
  constructor
  · intro h
    by_cases hn : name ∈ embeddedNames
    · simp only [withName, changeLocale, content]
      rw [if_neg (not_not.2 hn)]
      rcases h with h | h | ⟨t, h, h'⟩
      · rw [h]; rfl
      · rw [h]; rfl
      · rw [h, Res.bind_ok']
        split_ifs
        · rfl
        · rw [h']
    · exact C82_names env name locale hn
  · intro h
    simp only [fromFile, changeLocale, h]

/-- The locale chosen last by the program itself. -/
def chosen (start : Str) : List Op → Str
  | [] => start
  | .setLocale l :: ops => chosen l ops
  | _ :: ops => chosen start ops

/-- C82, locale: in every program that sets the locale and loads databases, whether loading succeeds or fails, the locale
after each step is the one the program chose last, and every loading gives what it gives in the "C" locale. -/
theorem C82_locale (env : Env) (start : Str) (ops : List Op) (i : Nat) (op : Op) (hop : ops[i]? = some op) :
    ∃ r, (run env start ops)[i]? = some (chosen start (ops.take (i + 1)), r) ∧
      (∀ name, op = .withName name → r = some (withName env name c!"C").2) ∧
      (∀ path, op = .fromFile path → r = some (fromFile env path c!"C").2) := by
  induction ops generalizing i start with
  | nil => simp at hop
  | cons o ops ih =>
    cases i with
    | zero =>
      simp only [List.getElem?_cons_zero, Option.some.injEq] at hop
      subst hop
      cases o with
      | setLocale l => exact ⟨none, rfl, by simp, by simp⟩
      | withName name =>
        exact ⟨some (withName env name start).2, rfl, by rintro _ h; cases h; rfl, by simp⟩
      | fromFile path =>
        exact ⟨some (fromFile env path start).2, rfl, by simp, by rintro _ h; cases h; rfl⟩
    | succ i =>
      simp only [List.getElem?_cons_succ] at hop
      cases o with
      | setLocale l =>
        obtain ⟨r, h1, h2⟩ := ih l i hop
        exact ⟨r, h1, h2⟩
      | withName name =>
        obtain ⟨r, h1, h2⟩ := ih start i hop
        exact ⟨r, h1, h2⟩
      | fromFile path =>
        obtain ⟨r, h1, h2⟩ := ih start i hop
        exact ⟨r, h1, h2⟩

/-! ### Entries of the shipped databases -/

/-- Numbers as they are read in the "C" locale. -/
def readerC : Reader := ⟨NumberText.tofloat, fun t => (NumberText.tofloat t).floor, NumberText.tofloat⟩

/-- The registered elements. -/
def elementC (symbol : Str) : Option Element := Registries.defaultElements.find? fun e => e.symbol = symbol

def leaf (tag text : Str) : Xml := .mk tag (some text) []

/-- Quartz in `supcrt98.xml`. -/
def quartz : Xml := .mk c!"Species" none
  [leaf c!"Name" c!"Quartz", leaf c!"Formula" c!"SiO2", leaf c!"Elements" c!"Si(1)O(2)", leaf c!"Type" c!"Mineral",
   .mk c!"Thermo" none [.mk c!"HKF" none
    [leaf c!"Gf" c!"-204646.0", leaf c!"Hf" c!"-217650.0", leaf c!"Sr" c!"9.88", leaf c!"Vr" c!"22.688",
     leaf c!"NumPhaseTrans" c!"1", leaf c!"Tmax" c!"2000.0",
     .mk c!"TemperatureRange0" none [leaf c!"a" c!"11.22", leaf c!"b" c!"0.0082", leaf c!"c" c!"-270000.0",
       leaf c!"Ttr" c!"848.0", leaf c!"Htr" c!"290.0", leaf c!"Vtr" c!"0.372", leaf c!"dPdTtr" c!"38.5"],
     .mk c!"TemperatureRange1" none [leaf c!"a" c!"14.41", leaf c!"b" c!"0.00194", leaf c!"c" c!"0.0"]]]]

/-- Water in `supcrt98.xml`. -/
def waterNode : Xml := .mk c!"Species" none
  [leaf c!"Name" c!"H2O(l)", leaf c!"Formula" c!"H2O", leaf c!"Elements" c!"H(2)O(1)", leaf c!"Type" c!"Aqueous", leaf c!"Charge" c!"0"]

/-- Bromellite in `supcrt98.xml`: the elements `Gf` and `Hf` are there, without text. -/
def bromellite : Xml := .mk c!"Species" none
  [leaf c!"Name" c!"Bromellite", leaf c!"Formula" c!"BeO", leaf c!"Elements" c!"Be(1)O(1)", leaf c!"Type" c!"Mineral",
   .mk c!"Thermo" none [.mk c!"HKF" none
    [.mk c!"Gf" none [], .mk c!"Hf" none [], leaf c!"Sr" c!"3.38", leaf c!"Vr" c!"8.309",
     leaf c!"NumPhaseTrans" c!"0", leaf c!"Tmax" c!"1200.0", leaf c!"a" c!"8.45", leaf c!"b" c!"0.004", leaf c!"c" c!"-317000.0"]]]

/-- The document with some entries. -/
def document (l : List Xml) : Xml := .mk [] none [.mk c!"Database" none l]

def quartzData : MineralData :=
  { name := c!"Quartz", Gf := -204646, Hf := -217650, Sr := 988/100, Vr := 22688/1000, nptrans := 1, Tmax := 2000,
    a := [1122/100, 1441/100], b := [82/10000, 194/100000], c := [-270000, 0], Ttr := [848], Htr := [290], Vtr := [372/1000],
    dPdTtr := [385/10] }

/-- Quartz and water meet the hypothesis of `C82_contents`. -/
example : Entries (document [quartz, leaf c!"Comment" c!"text", waterNode]) [quartz, waterNode] ∧
    ∃ s1 s2, List.Forall₂ (fun n p => Describes readerC elementC n p.1 p.2) [quartz, waterNode]
    [(s1, .mineral quartzData), (s2, .solvent)] := by
  refine ⟨(entries_iff _ _).2 rfl, ?_⟩
  refine ⟨⟨c!"Quartz", c!"SiO2", [(⟨c!"Si", 28085500/1000000000, c!"Silicon", []⟩, 1), (⟨c!"O", 15999400/1000000000, c!"Oxygen", []⟩, 2)], 0, .Solid, [], [], []⟩,
    ⟨c!"H2O(l)", c!"H2O", [(⟨c!"H", 1007940/1000000000, c!"Hydrogen", []⟩, 2), (⟨c!"O", 15999400/1000000000, c!"Oxygen", []⟩, 1)], 0, .Aqueous, [], [], []⟩,
    .cons ⟨rfl, rfl, ⟨[(c!"Si", c!"1"), (c!"O", c!"2")], rfl, by unfold Plain; decide, ?_⟩, by decide +kernel,
      ⟨c!"Mineral", rfl, rfl, rfl, rfl, ?_⟩, rfl, rfl, rfl⟩ (.cons ⟨rfl, rfl, ⟨[(c!"H", c!"2"), (c!"O", c!"1")], rfl, by unfold Plain; decide, ?_⟩, by decide +kernel,
      ⟨c!"Aqueous", rfl, rfl, rfl, rfl⟩, rfl, rfl, rfl⟩ .nil)⟩
  · exact .cons (by decide +kernel) (.cons (by decide +kernel) .nil)
  · refine ⟨by decide +kernel, by decide +kernel, by decide +kernel, by decide +kernel, by decide +kernel, by decide +kernel,
      by decide, fun h => absurd h (by decide), ?_, ?_⟩
    · intro _ i hi
      have : i = 0 ∨ i = 1 := by have : i ≤ 1 := hi; omega
      rcases this with rfl | rfl <;> decide +kernel
    · intro i hi
      have : i = 0 := by have : i < 1 := hi; omega
      subst this; decide +kernel
  · exact .cons (by decide +kernel) (.cons (by decide +kernel) .nil)

/-- An entry that meets the hypotheses of `C82_charge_wrong`. -/
example : ∃ s d, parseSpecies readerC elementC (some (.mk c!"Species" none [leaf c!"Name" c!"CO2(aq)", leaf c!"Formula" c!"CO2",
    leaf c!"Elements" c!"C(1)O(2)", leaf c!"Type" c!"Aqueous"])) = .ok (s, .solute d) ∧
    textAt (.mk c!"Species" none [leaf c!"Name" c!"CO2(aq)", leaf c!"Formula" c!"CO2",
      leaf c!"Elements" c!"C(1)O(2)", leaf c!"Type" c!"Aqueous"]) [c!"Charge"] = none :=
  ⟨⟨c!"CO2(aq)", c!"CO2", [(⟨c!"C", 12011 / 1000000, c!"Carbon", []⟩, 1), (⟨c!"O", 79997/5000000, c!"Oxygen", []⟩, 2)], 0, .Aqueous, [], [], []⟩,
    ⟨c!"CO2(aq)", 999999, 999999, 999999, 999999, 999999, 999999, 999999, 999999, 999999, 999999, 999999⟩, by decide +kernel, rfl⟩

/-- What is read for bromellite. -/
def bromelliteData : MineralData :=
  { name := c!"Bromellite", Gf := 999999, Hf := 999999, Sr := 338/100, Vr := 8309/1000, nptrans := 0, Tmax := 1200,
    a := [845/100], b := [4/1000], c := [-317000] }

/-- C82, missing data, in the shipped databases: bromellite (and 39 other minerals) has no formation energies; it is loaded
without an error, and its standard Gibbs energy at 25 °C and 1 bar is 999999 cal/mol. -/
theorem C82_shipped_wrong (water : ℝ × ℝ → Res Water.ThermoState) :
    (∃ db, parseDatabase readerC elementC (document [bromellite]) = .ok (db, [.mineral bromelliteData]) ∧
      db.species.map Species.name = [c!"Bromellite"]) ∧
    ∃ x, (Data.mineral bromelliteData).props water 298.15 100000 = .ok x ∧ x.G0 = 999999 * 4.184 := by
  constructor
  · have hp : parseSpecies readerC elementC (some bromellite) = .ok (⟨c!"Bromellite", c!"BeO",
        [(⟨c!"Be", 450609/50000000, c!"Beryllium", []⟩, 1), (⟨c!"O", 15999400/1000000000, c!"Oxygen", []⟩, 1)], 0, .Solid, [], [], []⟩,
        .mineral bromelliteData) := by decide +kernel
    have hs : speciesNodes (document [bromellite]) = [bromellite] := rfl
    unfold parseDatabase
    rw [hs]
    simp only [addNodes, hp, Res.bind_ok']
    exact ⟨_, rfl, rfl⟩
  · have h : ¬ ((298.15 : ℝ) ≤ 0 ∨ (298.15 : ℝ) > 1200) := by norm_num
    have hu := C82_mineral_tables readerC bromellite bromelliteData (by decide +kernel) water 298.15 100000
    simp only [Data.props, Data.params, Supcrt.props, Supcrt.mineralProps, Supcrt.checkTemperature] at hu ⊢
    have e : ((bromelliteData.Tmax : ℚ) : ℝ) = 1200 := by norm_num [bromelliteData]
    rw [e, if_neg h, Res.bind_ok'] at hu ⊢
    split at hu
    · rename_i hr
      rw [if_pos hr, Res.bind_ok']
      refine ⟨_, rfl, ?_⟩
      simp [Supcrt.convert, Supcrt.mineralState, Supcrt.Mineral.CpdT, Supcrt.Mineral.CpdlnT, Supcrt.Mineral.GdH,
        Supcrt.Mineral.VdP, Supcrt.Mineral.Ti, Supcrt.Mineral.Pt, bromelliteData, Supcrt.Tr, Supcrt.Pr, Supcrt.cal]
      norm_num
    · simp at hu

end Verif.SupcrtDb
