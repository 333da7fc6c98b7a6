import Verif.Lemmas.ShippedCheckA
import Verif.Lemmas.ShippedCheckB
import Verif.Lemmas.ShippedCheckC
import Verif.Lemmas.ShippedCheckD
import Verif.Model.SupcrtDatabase

/-!
# Theorems C104: the databases shipped with the program
-/

namespace Verif.ShippedData

open Chem DatabaseYAML

set_option maxRecDepth 100000

theorem good_ok : ∀ l ∈ good, ∀ n ∈ l, consistent (compositionTexts n) = true ∧ loadable (compositionTexts n) = true := by
  have h : ∀ l ∈ good, l.all (fun n => consistent (textsR n) && loadable (textsR n)) = true := by
    unfold good
    simp only [List.forall_mem_cons, List.not_mem_nil, false_imp_iff, implies_true, and_true]
    exact ⟨good0_ok, good1_ok, good2_ok, good3_ok, good4_ok, good5_ok, good6_ok, good7_ok, good8_ok, good9_ok, good10_ok, good11_ok, good12_ok, good13_ok, good14_ok, good15_ok, good16_ok, good17_ok, good18_ok, good19_ok, good20_ok, good21_ok, good22_ok⟩
  intro l hl n hn
  have := List.all_eq_true.1 (h l hl) n hn
  rw [textsR_eq] at this
  simpa using this

theorem odd_ok : odd.all (fun n => !consistent (compositionTexts n) && loadable (compositionTexts n)) = true := by decide +kernel

theorem good_length : good.flatten.length = 2249 := by decide +kernel

theorem compositions_length : compositions.length = 2280 := by
  rw [compositions, List.length_append, good_length]; rfl

theorem compositions_loadable : ∀ c ∈ compositions, loadable (compositionTexts c) = true := by
  intro c hc
  rcases List.mem_append.1 hc with h | h
  · obtain ⟨l, hl, hc⟩ := List.mem_flatten.1 h
    exact (good_ok l hl c hc).2
  · have := List.all_eq_true.1 odd_ok c h
    simp only [Bool.and_eq_true] at this
    exact this.2

theorem consistent_of_index (i : Nat) (h : i < 2280) :
    consistent (compositionTexts (compositions.getD i 0)) = true ↔ i < 2249 := by
  have hl := compositions_length
  have hg := good_length
  rw [compositions, List.length_append] at hl
  rw [List.getD_eq_getElem?_getD, compositions]
  by_cases hi : i < 2249
  · rw [List.getElem?_append_left (by omega), List.getElem?_eq_getElem (by omega), Option.getD_some]
    have hm : good.flatten[i]'(by omega) ∈ good.flatten := List.getElem_mem _
    obtain ⟨l, hl, hc⟩ := List.mem_flatten.1 hm
    exact ⟨fun _ => hi, fun _ => (good_ok l hl _ hc).1⟩
  · rw [List.getElem?_append_right (by omega), List.getElem?_eq_getElem (by omega), Option.getD_some]
    have hm : odd[i - good.flatten.length]'(by omega) ∈ odd := List.getElem_mem _
    have := List.all_eq_true.1 odd_ok _ hm
    simp only [Bool.and_eq_true, Bool.not_eq_true'] at this
    rw [this.1]
    exact ⟨fun h => (by cases h), fun h => absurd h hi⟩

/-- What the kernel evaluates for each file. -/
structure Checked (parts : List (List Row)) (f : File) : Prop where
  species : f.species = entries compositions parts
  rows : parts.flatten.all (rowLoadable 2280) = true
  short : parts.flatten.all (fun r => Nat.blt r.name (256 ^ 100)) = true
  names : distinct 11 (parts.flatten.map Row.name) = true
  wrong : (parts.flatten.filter (fun r => Nat.ble 2249 r.composition)).map (fun r => decode 1000 r.name) = f.wrongComposition
  gibbs : (parts.flatten.filter (fun r => undefinedRests.any (fun x => x == r.rest))).map (fun r => decode 1000 r.name) =
    f.undefinedGibbs

theorem checked98 : Checked Supcrt98.parts supcrt98 :=
  ⟨rfl, by decide +kernel, by decide +kernel, by decide +kernel, by decide +kernel, by decide +kernel⟩

theorem checked07 : Checked Supcrt07.parts supcrt07 :=
  ⟨rfl, by decide +kernel, by decide +kernel, by decide +kernel, by decide +kernel, by decide +kernel⟩

theorem checked16 : Checked Supcrt16.parts supcrt16 :=
  ⟨rfl, by decide +kernel, by decide +kernel, by decide +kernel, by decide +kernel, by decide +kernel⟩

theorem checkedbl : Checked Supcrtbl.parts supcrtbl :=
  ⟨rfl, by decide +kernel, by decide +kernel, by decide +kernel, by decide +kernel, by decide +kernel⟩

theorem checked (f : File) (hf : f ∈ files) : ∃ parts, Checked parts f := by
  simp only [files, List.mem_cons, List.not_mem_nil, or_false] at hf
  rcases hf with rfl | rfl | rfl | rfl
  · exact ⟨_, checked98⟩
  · exact ⟨_, checked07⟩
  · exact ⟨_, checked16⟩
  · exact ⟨_, checkedbl⟩

/-- **C104 (names).** No name occurs twice in a shipped file. -/
theorem C104_names (f : File) (hf : f ∈ files) : (f.species.map Entry.name).Nodup := by
  obtain ⟨parts, h⟩ := checked f hf
  rw [h.species]
  exact nodup_names _ _ _ h.short h.names

/-- **C104 (loading).** Every shipped file is loaded, and the database has exactly the species of the file, each with the formula
(without a suffix as in `CO(aq)`), the elements, the charge and the state written there. -/
theorem C104_loads (f : File) (hf : f ∈ files) :
    ∃ depth st flags db, (∀ k, load defaults (depth + k) (document f.species) = .ok st) ∧
      toDatabase st = .ok (flags, db) ∧ db.species = st.species ∧ st.species.length = f.species.length ∧
      ∀ e ∈ f.species, ∃ s ∈ db.species, s.name = e.name ∧ (∃ suffix, ChargeParser.splitSpeciesNameSuffix e.formula = .ok (s.formula, suffix)) ∧
        s.rawState = AggregateState.parse e.state ∧ s.charge = (if e.charge = [] then 0 else NumberText.tofloat e.charge) ∧
        (s.elements.map fun p => (p.1.symbol, p.2)) = NumberText.parseNumberStringPairs e.elements := by
  obtain ⟨parts, h⟩ := checked f hf
  have hn := C104_names f hf
  have hw := wellFormed compositions parts compositions_loadable
    (by rw [compositions_length]; exact List.all_eq_true.1 h.rows)
  rw [← h.species] at hw
  obtain ⟨depth, st, hst⟩ := C26_well_formed_loads defaults defaults_symbol _ (acyclic f.species) hw
  obtain ⟨h1, h2, h3, -⟩ := C26_load_partial defaults defaults_symbol _ _ st (hst 0)
  obtain ⟨flags, db, hd, -, hs, -⟩ := C26_to_database defaults defaults_symbol _ _ st (hst 0)
  have hnames : ∀ x, x ∈ st.species.map Species.name ↔ x ∈ f.species.map Entry.name := by
    intro x
    rw [h2 x]
    constructor
    · rintro ⟨n, hn, hx⟩
      obtain ⟨e, he, rfl⟩ := List.mem_map.1 hn
      rw [List.mem_map]
      exact ⟨e, he, by simpa [node] using hx⟩
    · intro hx
      obtain ⟨e, he, rfl⟩ := List.mem_map.1 hx
      exact ⟨node e, List.mem_map_of_mem he, rfl⟩
  refine ⟨depth, st, flags, db, hst, hd, hs, ?_, ?_⟩
  · have := (List.perm_ext_iff_of_nodup h1 hn).2 hnames
    simpa using this.length_eq
  · intro e he
    obtain ⟨s, hs', hse⟩ := List.mem_map.1 ((hnames e.name).2 (List.mem_map_of_mem he))
    obtain ⟨n, hn1, hn2⟩ := h3 s hs'
    obtain ⟨e', he', rfl⟩ := List.mem_map.1 (List.mem_of_find?_eq_some hn1)
    have hee : e' = e := by
      apply List.inj_on_of_nodup_map hn he' he
      have := hn2.1
      simp only [node, Option.some.injEq] at this
      rw [this, hse]
    subst hee
    obtain ⟨-, ⟨f, suffix, b, b'⟩, -, ⟨t, c1, c2, -⟩, d, e1, -⟩ := hn2
    refine ⟨s, hs ▸ hs', hse, ?_, ?_, e1, ?_⟩
    · simp only [node, Option.some.injEq] at b; exact ⟨suffix, b ▸ b'⟩
    · simp only [node, Option.some.injEq] at c1; rw [c2, c1]
    · simpa [node] using d.symm

/-- **C104 (composition).** The species of a loaded file have the elements and the charge of their formula, except exactly those
in the list of the file. -/
theorem C104_composition_partial (f : File) (hf : f ∈ files) (depth : Nat) (st : St)
    (h : load defaults depth (document f.species) = .ok st) (s : Species) (hs : s ∈ st.species) :
    Consistent s ↔ s.name ∉ f.wrongComposition := by
  obtain ⟨parts, hc⟩ := checked f hf
  have hn := C104_names f hf
  obtain ⟨-, -, h3, -⟩ := C26_load_partial defaults defaults_symbol _ _ st h
  obtain ⟨n, hn1, hn2⟩ := h3 s hs
  obtain ⟨e, he, rfl⟩ := List.mem_map.1 (List.mem_of_find?_eq_some hn1)
  have hname : s.name = e.name := by have := hn2.1; simpa [node] using this.symm
  rw [consistent_iff e s hn2, hname, ← hc.wrong]
  rw [hc.species] at he hn
  obtain ⟨r, hr, rfl⟩ := List.mem_map.1 he
  have hrow := List.all_eq_true.1 hc.rows r hr
  simp only [rowLoadable, Bool.and_eq_true, Nat.blt_eq] at hrow
  have key := consistent_of_index r.composition hrow.1.2
  rw [show consistent ((entry compositions r).formula, (entry compositions r).elements, (entry compositions r).charge) =
    consistent (compositionTexts (compositions.getD r.composition 0)) from rfl, key]
  constructor
  · intro hlt hmem
    obtain ⟨r', hr', hrr⟩ := List.mem_map.1 hmem
    obtain ⟨hr1, hr2⟩ := List.mem_filter.1 hr'
    have h5 : entry compositions r' = entry compositions r :=
      List.inj_on_of_nodup_map hn (List.mem_map_of_mem hr1) he hrr
    have hrow' := List.all_eq_true.1 hc.rows r' hr1
    simp only [rowLoadable, Bool.and_eq_true, Nat.blt_eq] at hrow'
    have key' := consistent_of_index r'.composition hrow'.1.2
    have h6 : consistent (compositionTexts (compositions.getD r'.composition 0)) =
        consistent (compositionTexts (compositions.getD r.composition 0)) := by
      have := congrArg (fun e : Entry => consistent (e.formula, e.elements, e.charge)) h5
      exact this
    rw [h6, key] at key'
    have := key'.1 hlt
    have := Nat.le_of_ble_eq_true hr2
    omega
  · intro hmem
    by_contra hlt
    exact hmem (List.mem_map.2 ⟨r, List.mem_filter.2 ⟨hr, Nat.ble_eq_true_of_le (by omega)⟩, rfl⟩)

/-- **C104 (Gibbs energies).** The species with an undefined parameter in their Gibbs energy are exactly those in the list. -/
theorem C104_gibbs_partial (f : File) (hf : f ∈ files) (e : Entry) (he : e ∈ f.species) :
    (∀ x ∈ essential, x ∉ e.undefined) ↔ e.name ∉ f.undefinedGibbs := by
  obtain ⟨parts, hc⟩ := checked f hf
  have hn := C104_names f hf
  rw [hc.species] at he hn
  rw [← hc.gibbs]
  have used : ∀ r ∈ parts.flatten, (∀ x ∈ essential, x ∉ (restTexts r.rest).2.2) ↔
      undefinedRests.any (fun x => x == r.rest) = false := by
    intro r hr
    have hrow := List.all_eq_true.1 hc.rows r hr
    simp only [rowLoadable, Bool.and_eq_true, List.any_eq_true, beq_iff_eq] at hrow
    obtain ⟨-, x, hx, hxr⟩ := hrow
    rw [← hxr]
    exact of_decide_eq_true (List.all_eq_true.1 undefinedRests_spec x hx)
  obtain ⟨r, hr, rfl⟩ := List.mem_map.1 he
  rw [show (entry compositions r).undefined = (restTexts r.rest).2.2 from rfl, used r hr]
  constructor
  · intro hb hmem
    obtain ⟨r', hr', hrr⟩ := List.mem_map.1 hmem
    obtain ⟨hr1, hr2⟩ := List.mem_filter.1 hr'
    have h5 : entry compositions r' = entry compositions r :=
      List.inj_on_of_nodup_map hn (List.mem_map_of_mem hr1) he hrr
    have h6 : (restTexts r'.rest).2.2 = (restTexts r.rest).2.2 := congrArg Entry.undefined h5
    have h7 := (used r' hr1).1 (by rw [h6]; exact (used r hr).2 hb)
    rw [h7] at hr2
    cases hr2
  · intro hmem
    by_contra hb
    exact hmem (List.mem_map.2 ⟨r, List.mem_filter.2 ⟨hr, by simpa using hb⟩, rfl⟩)

/-- **C104 (composition) is false of every shipped file.** In the first three, the species `EuF2(aq)` with the formula `EuF2` is
loaded with one atom of fluorine, so equilibrium calculations do not conserve fluorine; in the last, the formula of the mineral
spurrite, `Ca5Si2CO1`, is cut off after one of its eleven atoms of oxygen. -/
theorem C104_composition_wrong :
    (∀ f ∈ [supcrt98, supcrt07, supcrt16], ∃ e ∈ f.species, e.name = c!"EuF2(aq)" ∧ e.formula = c!"EuF2" ∧
      coefficient (NumberText.parseNumberStringPairs e.elements) c!"F" = 1 ∧
      ∃ atoms, FormulaParser.parseChemicalFormula e.formula = .ok atoms ∧ coefficient atoms c!"F" = 2) ∧
    ∃ e ∈ supcrtbl.species, e.name = c!"Spurrite" ∧ e.formula = c!"Ca5Si2CO1" ∧
      coefficient (NumberText.parseNumberStringPairs e.elements) c!"O" = 11 ∧
      ∃ atoms, FormulaParser.parseChemicalFormula e.formula = .ok atoms ∧ coefficient atoms c!"O" = 1 := by
  have eu : ∀ parts : List (List Row), (⟨n!"EuF2(aq)", 2258, n!"Aqueous|HKF|"⟩ : Row) ∈ parts.flatten →
      ∃ e ∈ entries compositions parts, e.name = c!"EuF2(aq)" ∧ e.formula = c!"EuF2" ∧
      coefficient (NumberText.parseNumberStringPairs e.elements) c!"F" = 1 ∧
      ∃ atoms, FormulaParser.parseChemicalFormula e.formula = .ok atoms ∧ coefficient atoms c!"F" = 2 := by
    intro parts h
    refine ⟨_, List.mem_map_of_mem h, by decide +kernel, by decide +kernel, by decide +kernel, ?_⟩
    refine ⟨[(c!"Eu", 1), (c!"F", 2)], by decide +kernel, by decide +kernel⟩
  refine ⟨?_, ?_⟩
  · simp only [List.forall_mem_cons, List.not_mem_nil, false_imp_iff, implies_true, and_true]
    exact ⟨eu _ (List.mem_of_elem_eq_true (by decide +kernel)), eu _ (List.mem_of_elem_eq_true (by decide +kernel)),
      eu _ (List.mem_of_elem_eq_true (by decide +kernel))⟩
  · have h : (⟨n!"Spurrite", 2278, n!"Solid|HollandPowell|"⟩ : Row) ∈ Supcrtbl.parts.flatten :=
      List.mem_of_elem_eq_true (by decide +kernel)
    refine ⟨_, List.mem_map_of_mem h, by decide +kernel, by decide +kernel, by decide +kernel, ?_⟩
    exact ⟨[(c!"Ca", 5), (c!"Si", 2), (c!"C", 1), (c!"O", 1)], by decide +kernel, by decide +kernel⟩

/-- **C104 (Gibbs energies) is false of every shipped file**: each has species without one. -/
theorem C104_gibbs_wrong (f : File) (hf : f ∈ files) : ∃ e ∈ f.species, ∃ x ∈ essential, x ∈ e.undefined := by
  obtain ⟨parts, hc⟩ := checked f hf
  have hne : f.undefinedGibbs ≠ [] := by
    simp only [files, List.mem_cons, List.not_mem_nil, or_false] at hf
    rcases hf with rfl | rfl | rfl | rfl <;> exact List.cons_ne_nil _ _
  obtain ⟨x, hx⟩ := List.exists_mem_of_ne_nil _ hne
  have hx' := hx
  rw [← hc.gibbs] at hx'
  obtain ⟨r, hr, rfl⟩ := List.mem_map.1 hx'
  have he : entry compositions r ∈ f.species := by
    rw [hc.species]; exact List.mem_map_of_mem (List.mem_filter.1 hr).1
  have := mt (C104_gibbs_partial f hf _ he).1 (fun h => h hx)
  push Not at this
  exact ⟨_, he, this⟩

/-! ### The files embedded in the program -/

/-- **C104 (repeated elements).** The other format (`SupcrtDatabase`) keeps a pair for every element written. If no symbol is
repeated, the coefficient that the species reports is the number of atoms. -/
theorem C104_embedded_partial (l : List (Str × Rat)) (h : (l.map Prod.fst).Nodup) (symbol : Str) :
    coefficient l symbol = total l symbol := by
  induction l with
  | nil => rfl
  | cons p l ih =>
    obtain ⟨h1, h2⟩ := List.nodup_cons.1 h
    have ih := ih h2
    unfold coefficient total at ih ⊢
    by_cases hp : p.1 = symbol
    · subst hp
      rw [List.find?_cons_of_pos (by simp), List.filter_cons_of_pos (by simp), List.filter_eq_nil_iff.2]
      · simp
      · intro q hq; simp only [decide_eq_true_eq]; rintro he; exact h1 (he ▸ List.mem_map_of_mem hq)
    · rw [List.find?_cons_of_neg (by simpa using hp), List.filter_cons_of_neg (by simpa using hp), ih]

/-- **C104 (repeated elements) is false of the embedded files.** `NH4(Succ)-` is written with the elements
`N(1)H(4)C(4)H(4)O(4)` (supcrt07.xml, supcrt07-organics.xml). The species is loaded with two pairs for hydrogen: it reports four
atoms where there are eight, and its molar mass counts all eight. -/
theorem C104_embedded_wrong (rd : SupcrtDb.Reader) (node : SupcrtDb.Xml)
    (ht : SupcrtDb.asText (some node) c!"Elements" = c!"N(1)H(4)C(4)H(4)O(4)")
    (h1 : rd.atof c!"1" = 1) (h4 : rd.atof c!"4" = 4) :
    ∃ l, SupcrtDb.parseElements rd (some node) = .ok l ∧ coefficient l c!"H" = 4 ∧ total l c!"H" = 8 := by
  have hs : Strings.split c!"N(1)H(4)C(4)H(4)O(4)" c!"()" =
      [c!"N", c!"1", c!"H", c!"4", c!"C", c!"4", c!"H", c!"4", c!"O", c!"4"] := by decide +kernel
  refine ⟨[(c!"N", 1), (c!"H", 4), (c!"C", 4), (c!"H", 4), (c!"O", 4)], ?_, by decide +kernel, by decide +kernel⟩
  unfold SupcrtDb.parseElements
  rw [ht, hs]
  simp only [SupcrtDb.pairUp, h1, h4, Res.bind_ok']

/-! ### Cases -/

/-- The embedded files have such nodes. -/
example : SupcrtDb.asText (some (.mk c!"Species" none [.mk c!"Name" (some c!"NH4(Succ)-") [],
    .mk c!"Elements" (some c!"N(1)H(4)C(4)H(4)O(4)") []])) c!"Elements" = c!"N(1)H(4)C(4)H(4)O(4)" := by decide +kernel

example : coefficient [(c!"H", 2), (c!"O", 1)] c!"H" = 2 ∧ total [(c!"H", 2), (c!"O", 1)] c!"H" = 2 := by decide +kernel

/-- The sizes of the files. -/
example : files.map (fun f => f.species.length) = [1553, 1920, 2029, 1671] := by
  simp only [files, List.map, supcrt98, supcrt07, supcrt16, supcrtbl, entries, List.length_map]
  decide +kernel

/-- Most species are right: calcite is loaded with its elements. -/
example (st : St) (depth : Nat) (h : load defaults depth (document supcrtbl.species) = .ok st) (s : Species)
    (hs : s ∈ st.species) (hn : s.name = c!"Calcite") : Consistent s :=
  (C104_composition_partial supcrtbl (by simp [files]) depth st h s hs).2 (by rw [hn]; decide +kernel)

end Verif.ShippedData
