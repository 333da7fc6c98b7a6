import Verif.Spec.CoreYAML
import Verif.Theorems.AggregateState
import Mathlib.Data.Rat.Encodable

/-!
# C122: core values as YAML nodes
-/

namespace Verif.CoreYAML

open ValueObjects (newElement)

theorem find_has {l : List (Str × Node)} {key : Str} {node : Node} : (l.find? (fun p => p.1 = key)).map Prod.snd = some node ↔ Has l key node := by
  constructor
  · intro h
    rw [Option.map_eq_some_iff] at h
    obtain ⟨⟨k, v⟩, h1, rfl⟩ := h
    obtain ⟨h2, before, after, h3, h4⟩ := List.find?_eq_some_iff_append.1 h1
    have : k = key := by simpa using h2
    subst this
    exact ⟨before, after, h3, fun p hp => by simpa using h4 p hp⟩
  · rintro ⟨before, after, rfl, h⟩
    rw [List.find?_append]
    have : before.find? (fun p => decide (p.1 = key)) = none := by
      rw [List.find?_eq_none]
      intro p hp
      simpa using h p hp
    rw [this]
    simp

theorem find_lacks {l : List (Str × Node)} {key : Str} : (l.find? (fun p => p.1 = key)).map Prod.snd = none ↔ Lacks l key := by
  rw [Option.map_eq_none_iff, List.find?_eq_none]
  unfold Lacks
  simp

theorem required_ok {α : Type} (conv : Node → Res α) (l : List (Str × Node)) (key : Str) (a : α) :
    required conv (.map l) key = .ok a ↔ ∃ node, Has l key node ∧ conv node = .ok a := by
  simp only [required, child, Res.bind_ok']
  cases h : (l.find? (fun p => p.1 = key)).map Prod.snd with
  | none =>
    simp only [reduceCtorEq, false_iff, not_exists, not_and]
    intro node hn
    rw [find_has.2 hn] at h
    simp at h
  | some c =>
    constructor
    · exact fun h' => ⟨c, find_has.1 h, h'⟩
    · rintro ⟨node, hn, h'⟩
      rw [find_has.2 hn] at h
      injection h with h
      subst h
      exact h'

theorem optional_ok {α : Type} (conv : Node → Res α) (l : List (Str × Node)) (key : Str) (d a : α) :
    optional conv (.map l) key d = .ok a ↔ (∃ node, Has l key node ∧ conv node = .ok a) ∨ (Lacks l key ∧ a = d) := by
  simp only [optional, child, Res.bind_ok']
  cases h : (l.find? (fun p => p.1 = key)).map Prod.snd with
  | none =>
    simp only [Res.ok.injEq]
    constructor
    · exact fun h' => Or.inr ⟨find_lacks.1 h, h'.symm⟩
    · rintro (⟨node, hn, -⟩ | ⟨-, h'⟩)
      · rw [find_has.2 hn] at h
        simp at h
      · exact h'.symm
  | some c =>
    constructor
    · exact fun h' => Or.inl ⟨c, find_has.1 h, h'⟩
    · rintro (⟨node, hn, h'⟩ | ⟨hl, -⟩)
      · rw [find_has.2 hn] at h
        injection h with h
        subst h
        exact h'
      · rw [find_lacks.2 hl] at h
        simp at h

theorem asText_ok (node : Node) (s : Str) : asText node = .ok s ↔ node = .scalar s := by
  cases node <;> simp [asText]

theorem asNumber_ok (n : Numbers) (node : Node) (x : Rat) : asNumber n node = .ok x ↔ ∃ s, node = .scalar s ∧ n.read s = some x := by
  cases node with
  | scalar s =>
    simp only [asNumber, Node.scalar.injEq, exists_eq_left']
    cases n.read s <;> simp
  | _ => simp [asNumber]

theorem eachItem_ok {α : Type} (f : Node → Res α) : ∀ (l : List Node) (as : List α), eachItem f l = .ok as ↔ l.map f = as.map .ok := by
  intro l
  induction l with
  | nil =>
    intro as
    cases as <;> simp [eachItem]
  | cons x l ih =>
    intro as
    simp only [eachItem]
    cases h : f x with
    | ok a =>
      simp only [Res.bind_ok']
      cases h' : eachItem f l with
      | ok as' =>
        rw [ih] at h'
        cases as with
        | nil => simp
        | cons b as =>
          simp only [Res.bind_ok', Res.ok.injEq, List.cons.injEq, List.map_cons, h, h']
          constructor
          · rintro ⟨rfl, rfl⟩
            exact ⟨rfl, rfl⟩
          · rintro ⟨h1, h2⟩
            exact ⟨h1, List.map_inj_right (fun a b hab => by injection hab) |>.1 h2⟩
      | throw =>
        cases as with
        | nil => simp
        | cons b as =>
          simp only [Res.bind_throw', reduceCtorEq, List.map_cons, List.cons.injEq, false_iff, not_and]
          intro _ h2
          rw [(ih as).2 h2] at h'
          cases h'
      | ub =>
        cases as with
        | nil => simp
        | cons b as =>
          simp only [Res.bind_ub', reduceCtorEq, List.map_cons, List.cons.injEq, false_iff, not_and]
          intro _ h2
          rw [(ih as).2 h2] at h'
          cases h'
    | throw => cases as <;> simp [h]
    | ub => cases as <;> simp [h]

theorem asList_ok {α : Type} (f : Node → Res α) (node : Node) (as : List α) : asList f node = .ok as ↔ ∃ l, node = .seq l ∧ l.map f = as.map .ok := by
  cases node with
  | seq l =>
    simp only [asList, Node.seq.injEq, exists_eq_left']
    exact eachItem_ok f l as
  | _ => simp [asList]

theorem texts_ok (node : Node) (as : List Str) : asList asText node = .ok as ↔ node = .seq (as.map .scalar) := by
  rw [asList_ok]
  constructor
  · rintro ⟨l, rfl, h⟩
    congr 1
    induction l generalizing as with
    | nil => cases as with
      | nil => rfl
      | cons a as => simp at h
    | cons x l ih =>
      cases as with
      | nil => simp at h
      | cons a as =>
        simp only [List.map_cons, List.cons.injEq] at h ⊢
        exact ⟨(asText_ok x a).1 h.1, ih as h.2⟩
  · rintro rfl
    refine ⟨_, rfl, ?_⟩
    rw [List.map_map]
    rfl

theorem newElement_ok (a : ValueObjects.ElementAttribs) (e : Chem.Element) : newElement a = .ok e ↔
    a.symbol ≠ [] ∧ 0 ≤ a.molarMass ∧ e = ⟨a.symbol, a.molarMass, if a.name = [] then a.symbol else a.name, a.tags⟩ := by
  unfold newElement
  by_cases h1 : a.symbol = []
  · simp [h1]
  · by_cases h2 : a.molarMass < 0
    · have : ¬ 0 ≤ a.molarMass := not_le.2 h2
      simp [h1, h2, this]
    · have : 0 ≤ a.molarMass := not_lt.1 h2
      simp only [h1, h2, this, if_false, ne_eq, not_false_eq_true, true_and, Res.ok.injEq]
      exact eq_comm

theorem bind_ok_iff {α β : Type} (x : Res α) (f : α → Res β) (b : β) : x.bind f = .ok b ↔ ∃ a, x = .ok a ∧ f a = .ok b := by
  cases x <;> simp

theorem has_unique {l : List (Str × Node)} {key : Str} {a b : Node} (h : Has l key a) (h' : Has l key b) : a = b := by
  have := (find_has.2 h).symm.trans (find_has.2 h')
  injection this

/-- **C122 (elements in documents).** A document is read as an element if and only if it is a map that describes it; every other document is an error. -/
theorem C122_document (n : Numbers) (node : Node) (e : Chem.Element) : decodeElement n node = .ok e ↔ ∃ l, node = .map l ∧ Describes n l e := by
  cases node with
  | map l =>
    simp only [Node.map.injEq, exists_eq_left', decodeElement, bind_ok_iff, required_ok, optional_ok, asText_ok, asNumber_ok, texts_ok, newElement_ok]
    constructor
    · rintro ⟨symbol, ⟨_, h1, rfl⟩, molarMass, ⟨_, h2, s, rfl, h3⟩, name, h4, tags, h5, h6, h7, rfl⟩
      refine ⟨⟨h1, h6⟩, ⟨⟨s, h2, h3⟩, h7⟩, ?_, ?_⟩
      · rcases h4 with ⟨_, h4, rfl⟩ | ⟨h4, rfl⟩
        · by_cases h : name = []
          · subst h
            exact Or.inr (Or.inl ⟨h4, by simp⟩)
          · exact Or.inl ⟨name, h4, h, if_neg h⟩
        · exact Or.inr (Or.inr ⟨h4, by simp⟩)
      · rcases h5 with ⟨_, h5, rfl⟩ | ⟨h5, rfl⟩
        · exact Or.inl h5
        · exact Or.inr ⟨h5, rfl⟩
    · rintro ⟨⟨h1, h2⟩, ⟨⟨s, h3, h4⟩, h5⟩, h6, h7⟩
      have ht : (∃ node, Has l c!"Tags" node ∧ node = .seq (e.tags.map .scalar)) ∨ Lacks l c!"Tags" ∧ e.tags = [] := by
        rcases h7 with h7 | h7
        · exact Or.inl ⟨_, h7, rfl⟩
        · exact Or.inr h7
      rcases h6 with ⟨s', g1, g2, g3⟩ | ⟨g1, g2⟩ | ⟨g1, g2⟩
      · exact ⟨e.symbol, ⟨_, h1, rfl⟩, e.molarMass, ⟨_, h3, s, rfl, h4⟩, s', Or.inl ⟨_, g1, rfl⟩, e.tags, ht, h2, h5, by rw [if_neg g2, ← g3]⟩
      · exact ⟨e.symbol, ⟨_, h1, rfl⟩, e.molarMass, ⟨_, h3, s, rfl, h4⟩, [], Or.inl ⟨_, g1, rfl⟩, e.tags, ht, h2, h5, by
          rw [if_pos rfl]
          obtain ⟨_, _, _, _⟩ := e
          simp_all⟩
      · exact ⟨e.symbol, ⟨_, h1, rfl⟩, e.molarMass, ⟨_, h3, s, rfl, h4⟩, [], Or.inr ⟨g1, rfl⟩, e.tags, ht, h2, h5, by
          rw [if_pos rfl]
          obtain ⟨_, _, _, _⟩ := e
          simp_all⟩
  | _ => simp [decodeElement, required, child, Res.bind]

/-- The document of an element describes it, with the symbol as name if there is none. -/
theorem encoded (n : Numbers) (hn : n.Faithful) (e : Chem.Element) (hs : e.symbol ≠ []) (hm : 0 ≤ e.molarMass) :
    decodeElement n (encodeElement n e) = .ok { e with name := if e.name = [] then e.symbol else e.name } := by
  obtain ⟨symbol, molarMass, name, tags⟩ := e
  unfold encodeElement
  dsimp only at hs hm ⊢
  have ht : asList asText (.seq (tags.map .scalar)) = .ok tags := (texts_ok _ _).2 rfl
  by_cases h1 : name = [] <;> by_cases h2 : tags = [] <;>
    simp [decodeElement, required, optional, child, h1, h2, asText, asNumber, hn molarMass, ht, newElement, hs, not_lt.2 hm]

/-- **C122 (elements).** An element that has been saved is read back as the same element, if and only if it has a symbol and a name and its molar mass is not negative (all elements
made from attributes do). -/
theorem C122_elements_partial (n : Numbers) (hn : n.Faithful) (e : Chem.Element) :
    decodeElement n (encodeElement n e) = .ok e ↔ e.symbol ≠ [] ∧ e.name ≠ [] ∧ 0 ≤ e.molarMass := by
  constructor
  · intro h
    obtain ⟨l, hl, hd⟩ := (C122_document n _ e).1 h
    have hs := hd.symbol.2
    have hm := hd.molarMass.2
    refine ⟨hs, ?_, hm⟩
    intro h0
    rw [encoded n hn e hs hm, if_pos h0] at h
    injection h with h
    have := congrArg Chem.Element.name h
    rw [h0] at this
    exact hs this
  · rintro ⟨h1, h2, h3⟩
    rw [encoded n hn e h1 h3, if_neg h2]

/-- **C122 (elements made from attributes).** They are all read back. -/
theorem C122_attributes (n : Numbers) (hn : n.Faithful) (a : ValueObjects.ElementAttribs) (e : Chem.Element) (h : newElement a = .ok e) :
    decodeElement n (encodeElement n e) = .ok e := by
  obtain ⟨h1, h2, rfl⟩ := (newElement_ok a e).1 h
  apply (C122_elements_partial n hn _).2
  refine ⟨h1, ?_, h2⟩
  dsimp only
  split_ifs with h3
  · exact h1
  · exact h3

theorem foldl_push (f : Chem.Element → Node) : ∀ (l : List Chem.Element) (k : List Node), l.foldl (fun node e => pushBack node (f e)) (.seq k) = .seq (k ++ l.map f) := by
  intro l
  induction l with
  | nil => intro k; simp
  | cons e l ih =>
    intro k
    rw [List.foldl_cons, show pushBack (.seq k) (f e) = .seq (k ++ [f e]) by rfl, ih, List.map_cons, List.append_assoc, List.singleton_append]

/-- **C122 (lists of elements).** A list of elements is read back as the same list if and only if it is not empty and each of its elements is. -/
theorem C122_lists_partial (n : Numbers) (hn : n.Faithful) (l : List Chem.Element) :
    decodeElements n (encodeElements n l) = .ok l ↔ l ≠ [] ∧ ∀ e ∈ l, e.symbol ≠ [] ∧ e.name ≠ [] ∧ 0 ≤ e.molarMass := by
  cases l with
  | nil => simp [decodeElements, encodeElements, asList]
  | cons e l =>
    have : encodeElements n (e :: l) = .seq ((e :: l).map (encodeElement n)) := by
      unfold encodeElements
      rw [List.foldl_cons]
      exact foldl_push (encodeElement n) l [encodeElement n e]
    rw [this, decodeElements, asList_ok]
    simp only [Node.seq.injEq, exists_eq_left', ne_eq, reduceCtorEq, not_false_eq_true, true_and, List.map_map]
    rw [List.map_inj_left]
    constructor
    · intro h x hx
      exact (C122_elements_partial n hn x).1 (h x hx)
    · intro h x hx
      exact (C122_elements_partial n hn x).2 (h x hx)

/-- **C122 (fails).** A list without elements is saved as null, which cannot be read; an element without a name is read with its symbol as name; an element without a symbol cannot be read. -/
theorem C122_elements_wrong (n : Numbers) (hn : n.Faithful) :
    decodeElements n (encodeElements n []) = .throw ∧
    (∀ s m tags, s ≠ [] → 0 ≤ m → decodeElement n (encodeElement n ⟨s, m, [], tags⟩) = .ok ⟨s, m, s, tags⟩) ∧
    ∀ m name tags, decodeElement n (encodeElement n ⟨[], m, name, tags⟩) = .throw := by
  refine ⟨rfl, ?_, ?_⟩
  · intro s m tags hs hm
    rw [encoded n hn _ hs hm]
    rfl
  · intro m name tags
    unfold encodeElement
    have ht : asList asText (.seq (tags.map .scalar)) = .ok tags := (texts_ok _ _).2 rfl
    by_cases h1 : name = [] <;> by_cases h2 : tags = [] <;>
      simp [decodeElement, required, optional, child, h1, h2, asText, asNumber, hn m, ht, newElement]

/-- **C122 (aggregate states).** Every aggregate state is read back. -/
theorem C122_states (s : AggregateState.State) : decodeState (encodeState s) = .ok s := by
  unfold decodeState encodeState asText
  rw [Res.bind_ok', (AggregateState.C13_parse_print s).1]

/-- **C122 (formulas).** A formula is read back as the formula of its text, so that all formulas made from texts are read back. -/
theorem C122_formulas_partial (s : Str) (f : Formula) (h : Lists.Formula.ofString s = .ok f) : decodeFormula (encodeFormula f) = .ok f := by
  have hs : f.str = s := by
    unfold Lists.Formula.ofString at h
    rw [bind_ok_iff] at h
    obtain ⟨els, -, h⟩ := h
    rw [bind_ok_iff] at h
    obtain ⟨z, -, h⟩ := h
    injection h with h
    rw [← h]
  unfold decodeFormula encodeFormula asText
  rw [Res.bind_ok', hs, h]

/-- **C122 (fails for formulas).** The elements and charge that were given to a formula are lost: the formula `Calcite` with the elements Ca, C and O is read with other elements or not at all. -/
theorem C122_formulas_wrong : let f : Formula := ⟨c!"H2O", [(c!"Ca", 1), (c!"C", 1), (c!"O", 3)], 0⟩
    decodeFormula (encodeFormula f) = .ok ⟨c!"H2O", [(c!"H", 2), (c!"O", 1)], 0⟩ := by
  decide +kernel

/-- **C122 (parameters).** Parameters are read back with their values, in the same order; they are the same parameters if and only if none of them has an identifier, a bound or is constant. -/
theorem C122_parameters_partial (n : Numbers) (hn : n.Faithful) (l : List (Param.Impl Rat)) :
    ∃ l', decodeParams n (encodeParams n l) = .ok l' ∧ l'.map Param.Impl.value = l.map Param.Impl.value ∧
      (l' = l ↔ ∀ p ∈ l, p.id = "" ∧ p.lowerbound = none ∧ p.upperbound = none ∧ p.isconst = false) := by
  have h : asList (asNumber n) (encodeParams n l) = .ok (l.map Param.Impl.value) := by
    rw [asList_ok]
    refine ⟨_, rfl, ?_⟩
    rw [List.map_map, List.map_map]
    apply List.map_congr_left
    intro p _
    simp [encodeParam, asNumber, hn p.value]
  refine ⟨_, by unfold decodeParams; rw [h, Res.bind_ok'], ?_, ?_⟩
  · rw [List.map_map, List.map_map]
    rfl
  · rw [List.map_map]
    constructor
    · intro he p hp
      rw [← he] at hp
      obtain ⟨q, -, rfl⟩ := List.mem_map.1 hp
      exact ⟨rfl, rfl, rfl, rfl⟩
    · intro hall
      conv_rhs => rw [← List.map_id l]
      apply List.map_congr_left
      intro p hp
      obtain ⟨h1, h2, h3, h4⟩ := hall p hp
      obtain ⟨v, i, lo, up, c⟩ := p
      simp_all

/-- **C122 (one parameter).** The same for one parameter; `decode` gives a new parameter, whatever was read. -/
theorem C122_parameter_partial (n : Numbers) (hn : n.Faithful) (p : Param.Impl Rat) : decodeParam n (encodeParam n p) = .ok { value := p.value } := by
  simp [decodeParam, encodeParam, asNumber, hn p.value]

/-- **C122 (fails for parameters).** The identifier of a parameter is lost. -/
theorem C122_parameters_wrong (n : Numbers) (hn : n.Faithful) (p : Param.Impl Rat) (h : p.id ≠ "") : decodeParams n (encodeParams n [p]) ≠ .ok [p] := by
  obtain ⟨l', h1, -, h2⟩ := C122_parameters_partial n hn [p]
  rw [h1]
  intro h3
  injection h3 with h3
  exact h (h2.1 h3 p (List.mem_singleton_self p)).1

/-! ### The hypotheses are satisfiable -/

/-- Numbers as texts of as many marks as their place in an enumeration of the rational numbers. -/
def tally : Numbers where
  print x := List.replicate (Encodable.encode x) '1'
  read s := Encodable.decode s.length

theorem tally_faithful : tally.Faithful := by
  intro x
  simp [tally]

def hydrogen : Chem.Element := ⟨c!"H", 1008 / 1000000, c!"Hydrogen", [c!"gas", c!"light"]⟩

/-- An element with a name and tags is saved with four keys and read back, alone and in a list. -/
example : (∃ a b c d, encodeElement tally hydrogen = .map [a, b, c, d]) ∧ decodeElement tally (encodeElement tally hydrogen) = .ok hydrogen ∧
    decodeElements tally (encodeElements tally [hydrogen, hydrogen]) = .ok [hydrogen, hydrogen] := by
  have h : hydrogen.symbol ≠ [] ∧ hydrogen.name ≠ [] ∧ 0 ≤ hydrogen.molarMass := by decide +kernel
  refine ⟨⟨_, _, _, _, rfl⟩, (C122_elements_partial tally tally_faithful _).2 h, (C122_lists_partial tally tally_faithful _).2 ⟨by simp, ?_⟩⟩
  intro e he
  simp only [List.mem_cons, List.not_mem_nil, or_false, or_self] at he
  rw [he]
  exact h

/-- The attributes of an element whose name is not given. -/
example : ∃ e, newElement { symbol := c!"H", molarMass := 1, name := [], tags := [] } = .ok e ∧ decodeElement tally (encodeElement tally e) = .ok e := by
  have h : newElement { symbol := c!"H", molarMass := 1, name := [], tags := [] } = .ok ⟨c!"H", 1, c!"H", []⟩ := by decide +kernel
  exact ⟨_, h, C122_attributes tally tally_faithful _ _ h⟩

/-- A document with other keys, in another order, and without a name. -/
example : decodeElement tally (.map [(c!"Comment", .null), (c!"Tags", .seq [.scalar c!"a"]), (c!"MolarMass", .scalar (tally.print 2)), (c!"Symbol", .scalar c!"X")]) =
    .ok ⟨c!"X", 2, c!"X", [c!"a"]⟩ := by
  apply (C122_document _ _ _).2
  refine ⟨_, rfl, ?_, ?_, ?_, ?_⟩
  · exact ⟨⟨[(c!"Comment", .null), (c!"Tags", .seq [.scalar c!"a"]), (c!"MolarMass", .scalar (tally.print 2))], [], by rfl, by simp⟩, by simp⟩
  · exact ⟨⟨_, ⟨[(c!"Comment", .null), (c!"Tags", .seq [.scalar c!"a"])], [(c!"Symbol", .scalar c!"X")], by rfl, by simp⟩, tally_faithful 2⟩, by norm_num⟩
  · exact Or.inr (Or.inr ⟨by simp [Lacks], rfl⟩)
  · exact Or.inl ⟨[(c!"Comment", .null)], _, by rfl, by simp⟩

/-- The formula of water is made from its text. -/
example : ∃ f, Lists.Formula.ofString c!"H2O" = .ok f ∧ decodeFormula (encodeFormula f) = .ok f := by
  have h : Lists.Formula.ofString c!"H2O" = .ok ⟨c!"H2O", [(c!"H", 2), (c!"O", 1)], 0⟩ := by decide +kernel
  exact ⟨_, h, C122_formulas_partial _ _ h⟩

/-- A parameter with an identifier. -/
example : decodeParams tally (encodeParams tally [{ value := 3, id := "K" }]) ≠ .ok [{ value := 3, id := "K" }] :=
  C122_parameters_wrong tally tally_faithful _ (by decide)

end Verif.CoreYAML
