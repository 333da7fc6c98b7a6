import Verif.Spec.ShippedData
import Verif.Theorems.DatabaseYAML
import Mathlib.Tactic.Linarith

/-!
# Lemmas for C104: versions of the parsers that the kernel evaluates quickly, and the checks made of the files
-/

namespace Verif.ShippedData

open Chem

/-! ### Parsers with a bound on the number of steps -/

/-- `Strings.split` with a bound on the recursion. -/
def splitF : Nat → Str → Str → List Str
  | 0, _, _ => []
  | n + 1, rest, delims =>
    let word := rest.takeWhile (fun c => !delims.contains c)
    let words := if word ≠ [] then [word] else []
    match rest.dropWhile (fun c => !delims.contains c) with
    | [] => words
    | _ :: rest' => words ++ splitF n rest' delims

theorem splitF_eq (n : Nat) (s delims : Str) (h : s.length < n) : splitF n s delims = Strings.split s delims := by
  induction n generalizing s with
  | zero => omega
  | succ n ih =>
    rw [Strings.split, splitF]
    have hl := (List.dropWhile_sublist (fun c => !delims.contains c) (l := s)).length_le
    cases hd : s.dropWhile (fun c => !delims.contains c) with
    | nil => simp
    | cons c r =>
      rw [hd] at hl
      simp only [List.length_cons] at hl
      simp only [ih r (by omega)]

/-- `FormulaParser.parseAux` with a bound on the recursion. -/
def parseF : Nat → Str → List (Str × Rat) → Rat → Res (List (Str × Rat))
  | 0, _, _, _ => .ub
  | n + 1, s, result, scalar =>
    match s with
    | [] => .ok result
    | c :: rest =>
      if c ≠ '(' ∧ c ≠ '.' ∧ ¬ c.isUpper then parseF n rest result scalar
      else if c = '(' then
        match (Strings.findMatchingBracket 0 rest).2 with
        | [] => .ub
        | _ :: after =>
          Res.bind (parseF n (Strings.findMatchingBracket 0 rest).1 result (scalar * (FormulaParser.parseNumAtoms after).1))
            (fun result1 => parseF n (FormulaParser.parseNumAtoms after).2 result1 scalar)
      else if c = '.' then
        parseF n (FormulaParser.parseNumAtoms rest).2 result (scalar * (FormulaParser.parseNumAtoms rest).1)
      else
        parseF n (FormulaParser.parseNumAtoms (FormulaParser.parseElementAtom (c :: rest)).2).2
          (FormulaParser.addTo (FormulaParser.parseElementAtom (c :: rest)).1
            (scalar * (FormulaParser.parseNumAtoms (FormulaParser.parseElementAtom (c :: rest)).2).1) result)
          scalar

theorem bracket_length (l : Int) (t : Str) :
    (Strings.findMatchingBracket l t).1.length + (Strings.findMatchingBracket l t).2.length = t.length := by
  induction t generalizing l with
  | nil => rfl
  | cons x t ih =>
    simp only [Strings.findMatchingBracket]
    split
    · simp
    · simp only [List.length_cons]; have := ih (Strings.nextLevel l x); omega

theorem parseF_eq (n : Nat) (s : Str) (result : List (Str × Rat)) (scalar : Rat) (h : s.length < n) :
    parseF n s result scalar = FormulaParser.parseAux s result scalar := by
  induction n generalizing s result scalar with
  | zero => omega
  | succ n ih =>
    cases s with
    | nil => rw [FormulaParser.parseAux]; rfl
    | cons c rest =>
      simp only [List.length_cons] at h
      rw [FormulaParser.parseAux, parseF]
      split_ifs with h1 h2 h3
      · exact ih _ _ _ (by omega)
      · have hb := bracket_length 0 rest
        cases hm : (Strings.findMatchingBracket 0 rest).2 with
        | nil => rfl
        | cons x after =>
          rw [hm] at hb
          simp only [List.length_cons] at hb
          have := FormulaParser.parseNumAtoms_length after
          dsimp only
          rw [ih _ _ _ (by omega)]
          congr 1
          funext r
          exact ih _ _ _ (by omega)
      · have := FormulaParser.parseNumAtoms_length rest
        exact ih _ _ _ (by omega)
      · have h1 := FormulaParser.parseElementAtom_length c rest
        have h2 := FormulaParser.parseNumAtoms_length (FormulaParser.parseElementAtom (c :: rest)).2
        exact ih _ _ _ (by omega)

/-- The composition in a text `Elements`. -/
def pairsOf (elements : Str) : List (Str × Rat) :=
  ((splitF (elements.length + 1) elements [' ']).map NumberText.splitPair).foldl NumberText.addPair []

theorem pairsOf_eq (elements : Str) : NumberText.parseNumberStringPairs elements = pairsOf elements := by
  unfold pairsOf NumberText.parseNumberStringPairs
  rw [splitF_eq _ _ _ (by omega)]

/-- The charge in a text `Charge`. -/
def chargeOf (charge : Str) : Rat := if charge = [] then 0 else NumberText.tofloat charge

/-! ### Checks -/

theorem coefficient_eq_zero (l : List (Str × Rat)) (x : Str) (h : x ∉ l.map Prod.fst) : coefficient l x = 0 := by
  unfold coefficient
  rw [List.find?_eq_none.2]
  · rfl
  · intro p hp; simp only [decide_eq_true_eq]; rintro rfl; exact h (List.mem_map_of_mem hp)

/-- Two compositions have the same coefficients: most often the lists are the same. -/
def sameCoefficients (l l' : List (Str × Rat)) : Bool :=
  l == l' || (l.map Prod.fst ++ l'.map Prod.fst).all fun x => coefficient l x == coefficient l' x

theorem sameCoefficients_iff (l l' : List (Str × Rat)) :
    sameCoefficients l l' = true ↔ ∀ x, coefficient l x = coefficient l' x := by
  unfold sameCoefficients
  simp only [Bool.or_eq_true, List.all_eq_true, beq_iff_eq]
  constructor
  · intro h x
    rcases h with rfl | h
    · rfl
    by_cases hx : x ∈ l.map Prod.fst ++ l'.map Prod.fst
    · exact h x hx
    · simp only [List.mem_append, not_or] at hx
      rw [coefficient_eq_zero l x hx.1, coefficient_eq_zero l' x hx.2]
  · intro h; exact Or.inr fun x _ => h x

/-- A composition has the elements and the charge of its formula. -/
def consistent (c : Str × Str × Str) : Bool :=
  match ValueObjects.removeSuffix c.1 with
  | .ok f =>
    match parseF (f.length + 1) f [] 1, ChargeParser.parseElectricCharge f with
    | .ok atoms, .ok q => chargeOf c.2.2 == q && sameCoefficients (pairsOf c.2.1) atoms
    | _, _ => false
  | _ => false

theorem consistent_iff (e : Entry) (s : Species) (h : DatabaseYAML.HasDataOf (node e) s) :
    Consistent s ↔ consistent (e.formula, e.elements, e.charge) = true := by
  obtain ⟨-, hf, -, -, he, hc, -⟩ := h
  obtain ⟨f, suffix, hf, hs⟩ := hf
  have hf' : f = e.formula := by simpa [node] using hf.symm
  subst hf'
  have hb : ValueObjects.removeSuffix e.formula = .ok s.formula := by rw [ValueObjects.removeSuffix, hs]; rfl
  have he' : (s.elements.map fun p => (p.1.symbol, p.2)) = pairsOf e.elements := by
    rw [← pairsOf_eq]; simpa [node] using he.symm
  have hc' : s.charge = chargeOf e.charge := hc
  unfold Consistent consistent
  rw [he', hc']
  dsimp only
  rw [hb]
  dsimp only
  rw [parseF_eq _ _ _ _ (by omega), show FormulaParser.parseAux s.formula [] 1 = FormulaParser.parseChemicalFormula s.formula from rfl]
  cases h1 : FormulaParser.parseChemicalFormula s.formula with
  | throw => simp
  | ub => simp
  | ok atoms =>
    cases h2 : ChargeParser.parseElectricCharge s.formula with
    | throw => simp
    | ub => simp
    | ok q =>
      simp only [Res.ok.injEq, Bool.and_eq_true, beq_iff_eq, sameCoefficients_iff]
      constructor
      · rintro ⟨_, _, rfl, rfl, h3, h4⟩; exact ⟨h3, h4⟩
      · rintro ⟨h3, h4⟩; exact ⟨_, _, rfl, rfl, h3, h4⟩

/-- The symbols of the default elements, as numbers. -/
def knownSymbols : List Str := Registries.defaultElements.map Element.symbol

theorem defaults_eq (x : Str) : defaults x = Registries.defaultElements.find? (fun e => e.symbol = x) := by
  unfold defaults Registries.withSymbol indexfn
  dsimp only
  generalize Registries.defaultElements = l
  rw [List.find?_eq_getElem?_findIdx]
  split_ifs with h
  · rfl
  · rw [List.getElem?_eq_none (by omega)]

theorem defaults_isSome (x : Str) (h : x ∈ knownSymbols) : (defaults x).isSome = true := by
  rw [defaults_eq]
  unfold knownSymbols at h
  obtain ⟨e, he, rfl⟩ := List.mem_map.1 h
  rw [List.find?_isSome]
  exact ⟨e, he, by simp⟩

theorem defaults_symbol (x : Str) (e : Element) (h : defaults x = some e) : e.symbol = x := by
  rw [defaults_eq] at h
  have := List.find?_some h
  simpa using this

/-- The elements that occur in the files, the frequent ones first. -/
def usedSymbols : List Str := [
  c!"O", c!"H", c!"C", c!"N", c!"Si", c!"P", c!"Al", c!"Cl", c!"Mg", c!"S", c!"Fe", c!"Ca", c!"F", c!"Na", c!"As",
  c!"K", c!"Eu", c!"Cu", c!"Mn", c!"Pb", c!"U", c!"Zn", c!"Am", c!"Sr", c!"Ni", c!"Co", c!"La", c!"Cd", c!"Ba",
  c!"Gd", c!"Yb", c!"Ru", c!"Ce", c!"Er", c!"Sm", c!"Lu", c!"Nd", c!"Tb", c!"Rh", c!"Dy", c!"Ho", c!"Pr", c!"Tm",
  c!"Ag", c!"Cr", c!"Be", c!"Pd", c!"Hg", c!"Pt", c!"Sc", c!"I", c!"V", c!"Li", c!"Tl", c!"Br", c!"Y", c!"Au", c!"Se",
  c!"In", c!"Sn", c!"Cs", c!"Rb", c!"Bi", c!"Zr", c!"Ga", c!"Ti", c!"Th", c!"Hf", c!"Np", c!"B", c!"Mo", c!"Ra",
  c!"Pm", c!"Pu", c!"Ar", c!"He", c!"Kr", c!"Ne", c!"Rn", c!"Xe", c!"W", c!"Sb", c!"Nb", c!"Re", c!"Fr", c!"Tc",
  c!"Pa", c!"Cm"]

theorem usedSymbols_known : usedSymbols.all (fun x => (defaults x).isSome) = true := by decide +kernel

/-- The number of a symbol with one or two letters. -/
def symbolCode : Str → Nat
  | [a] => bif Nat.blt a.toNat 256 then a.toNat + 1 else 0
  | [a, b] => bif Nat.blt a.toNat 256 then 65536 + a.toNat + 256 * b.toNat else 0
  | _ => 0

/-- The numbers of these symbols. -/
def usedCodes : List Nat := [
  80, 73, 68, 79, 92499, 81, 93249, 93251, 91981, 84, 91462, 90435, 71, 90446, 95041, 76, 95557, 95555, 93773, 90704,
  86, 93786, 93505, 94803, 92494, 94019, 90444, 91203, 90434, 91207, 90713, 95570, 91459, 94789, 93523, 95564, 91214,
  90708, 92242, 96580, 94024, 94800, 93524, 91969, 94787, 91458, 91216, 91976, 95312, 90963, 74, 87, 92492, 93268,
  94786, 90, 95553, 91475, 93769, 93779, 95043, 90706, 92482, 94810, 90439, 92500, 92244, 91720, 94286, 67, 94029,
  90450, 93520, 95568, 94785, 91464, 94795, 91470, 93778, 91480, 88, 90707, 90702, 91474, 94790, 90964, 90448, 93507]

theorem usedCodes_eq : usedCodes = usedSymbols.map symbolCode := by decide +kernel

theorem symbolCode_inj (x y : Str) (h : symbolCode x = symbolCode y) (h0 : symbolCode x ≠ 0) : x = y := by
  have toNat_inj : ∀ a b : Char, a.toNat = b.toNat → a = b := fun a b h => Char.toNat_inj.1 h
  have cases : ∀ z : Str, symbolCode z = 0 ∨ (∃ a, z = [a] ∧ a.toNat < 256 ∧ symbolCode z = a.toNat + 1) ∨
      ∃ a b, z = [a, b] ∧ a.toNat < 256 ∧ symbolCode z = 65536 + a.toNat + 256 * b.toNat := by
    intro z
    match z with
    | [] => exact Or.inl rfl
    | [a] =>
      cases ha : Nat.blt a.toNat 256 with
      | false => left; simp only [symbolCode, ha, cond_false]
      | true =>
        right; left
        exact ⟨a, rfl, by simpa using ha, by simp only [symbolCode, ha, cond_true]⟩
    | [a, b] =>
      cases ha : Nat.blt a.toNat 256 with
      | false => left; simp only [symbolCode, ha, cond_false]
      | true =>
        right; right
        exact ⟨a, b, rfl, by simpa using ha, by simp only [symbolCode, ha, cond_true]⟩
    | _ :: _ :: _ :: _ => exact Or.inl rfl
  rcases cases x with hx | ⟨a, rfl, ha, hx⟩ | ⟨a, b, rfl, ha, hx⟩
  · exact absurd hx h0
  · rcases cases y with hy | ⟨c, rfl, hc, hy⟩ | ⟨c, d, rfl, hc, hy⟩
    · omega
    · rw [toNat_inj a c (by omega)]
    · omega
  · rcases cases y with hy | ⟨c, rfl, hc, hy⟩ | ⟨c, d, rfl, hc, hy⟩
    · omega
    · omega
    · rw [toNat_inj a c (by omega), toNat_inj b d (by omega)]

theorem usedCodes_pos : usedCodes.all (fun x => x != 0) = true := by decide +kernel

theorem known_of_code (y : Str) (h : symbolCode y ∈ usedCodes) : (defaults y).isSome = true := by
  have h0 := List.all_eq_true.1 usedCodes_pos _ h
  rw [usedCodes_eq] at h
  obtain ⟨x, hx, he⟩ := List.mem_map.1 h
  rw [← symbolCode_inj x y he (by rw [he]; simpa using h0)]
  exact List.all_eq_true.1 usedSymbols_known x hx

/-! ### Texts read with recursors, which the kernel unfolds quickly -/

/-- `decode`. -/
noncomputable def decodeR (fuel : Nat) : Nat → Str :=
  Nat.rec (motive := fun _ => Nat → Str) (fun _ => [])
    (fun _ ih n => Bool.rec (charOf n :: ih (Nat.div n 256)) [] (Nat.beq n 0)) fuel

theorem decodeR_eq (fuel n : Nat) : decodeR fuel n = decode fuel n := by
  induction fuel generalizing n with
  | zero => rfl
  | succ f ih =>
    rw [decode, ← ih]
    show (Bool.rec (charOf n :: decodeR f (Nat.div n 256)) [] (Nat.beq n 0) : Str) = _
    by_cases h : n = 0
    · subst h; rfl
    · rw [if_neg h]
      have : Nat.beq n 0 = false := by
        cases hb : Nat.beq n 0 with
        | false => rfl
        | true => exact absurd (Nat.eq_of_beq_eq_true hb) h
      rw [this]
      rfl

/-- `fields`. -/
noncomputable def fieldsR (l : Str) : List Str :=
  List.rec (motive := fun _ => List Str) [[]] (fun c _ r =>
    Bool.rec (List.rec (motive := fun _ => List Str) [[c]] (fun f fs _ => (c :: f) :: fs) r) ([] :: r) (Nat.beq c.toNat 124)) l

theorem fieldsR_eq (l : Str) : fieldsR l = fields l := by
  induction l with
  | nil => rfl
  | cons c l ih =>
    rw [fields, ← ih]
    show (Bool.rec (List.rec (motive := fun _ => List Str) [[c]] (fun f fs _ => (c :: f) :: fs) (fieldsR l)) ([] :: fieldsR l)
      (Nat.beq c.toNat 124) : List Str) = _
    by_cases h : c = '|'
    · subst h; rfl
    · rw [if_neg h]
      have : Nat.beq c.toNat 124 = false := by
        cases hb : Nat.beq c.toNat 124 with
        | false => rfl
        | true => exact absurd (Char.toNat_inj.1 (Nat.eq_of_beq_eq_true hb)) h
      rw [this]
      cases fieldsR l <;> rfl

/-- `compositionTexts`. -/
noncomputable def textsR (n : Nat) : Str × Str × Str :=
  match fieldsR (decodeR 1000 n) with
  | [a, b, c] => (a, b, c)
  | _ => ([], [], [])

theorem textsR_eq (n : Nat) : textsR n = compositionTexts n := by
  unfold textsR compositionTexts
  rw [fieldsR_eq, decodeR_eq]
  rfl

/-- A composition can be loaded. -/
def loadable (c : Str × Str × Str) : Bool :=
  !c.1.isEmpty && !(pairsOf c.2.1).isEmpty && (pairsOf c.2.1).all fun p => usedCodes.any fun x => Nat.beq x (symbolCode p.1)

/-- The texts of state, model and undefined parameters that occur in the files. -/
def usedRests : List Nat := [
  n!"Aqueous|HKF|",
  n!"Solid|MaierKelley|",
  n!"Solid|HollandPowell|",
  n!"Gas|MaierKelley|",
  n!"Solid|MineralHKF|Gf Hf Htr Vtr dPdTtr",
  n!"Solid|MaierKelley|Gf Hf",
  n!"Solid|MineralHKF|Vtr dPdTtr",
  n!"Solid|MineralHKF|Htr Vtr dPdTtr",
  n!"Solid|MaierKelley|Tmax",
  n!"Gas|HollandPowell|",
  n!"Solid|MineralHKF|",
  n!"Aqueous|WaterHKF|",
  n!"Solid|MineralHKF|Gf Hf Vtr dPdTtr",
  n!"Aqueous|HKF|a1 a2 a3 a4 c1 c2 wref"]

theorem usedRests_known : usedRests.all (fun r => AggregateState.parse (restTexts r).1 ≠ .Undefined &&
    (restTexts r).2.1 ∈ knownModels) = true := by decide +kernel

/-- Those with an undefined parameter in the Gibbs energy. -/
def undefinedRests : List Nat := [
  n!"Solid|MaierKelley|Gf Hf", n!"Solid|MineralHKF|Gf Hf Htr Vtr dPdTtr", n!"Solid|MineralHKF|Gf Hf Vtr dPdTtr",
  n!"Aqueous|HKF|a1 a2 a3 a4 c1 c2 wref"]

theorem undefinedRests_spec : usedRests.all (fun r => decide ((∀ x ∈ essential, x ∉ (restTexts r).2.2) ↔
    undefinedRests.any (fun x => x == r) = false)) = true := by decide +kernel

/-- A row can be loaded: it has a name, the number of a composition, and a known state and model. -/
def rowLoadable (n : Nat) (r : Row) : Bool :=
  r.name != 0 && Nat.blt r.composition n && usedRests.any (fun x => x == r.rest)

theorem decode_ne_nil (f n : Nat) (h : n ≠ 0) : decode (f + 1) n ≠ [] := by
  rw [decode, if_neg h]; simp

theorem wellFormed (compositions : List Nat) (parts : List (List Row))
    (hc : ∀ c ∈ compositions, loadable (compositionTexts c) = true)
    (hr : ∀ r ∈ parts.flatten, rowLoadable compositions.length r = true) :
    DatabaseYAML.WellFormed defaults (document (entries compositions parts)) := by
  have key : ∀ n ∈ (document (entries compositions parts)).species, ∃ e, n = node e ∧
      e.name ≠ [] ∧ e.formula ≠ [] ∧ AggregateState.parse e.state ≠ .Undefined ∧
      e.model ∈ knownModels ∧ pairsOf e.elements ≠ [] ∧ ∀ p ∈ pairsOf e.elements, (defaults p.1).isSome = true := by
    intro n hn
    obtain ⟨e, he, rfl⟩ := List.mem_map.1 hn
    obtain ⟨r, hr', rfl⟩ := List.mem_map.1 he
    have h1 := hr r hr'
    simp only [rowLoadable, Bool.and_eq_true, bne_iff_ne, ne_eq, Nat.blt_eq, List.any_eq_true, beq_iff_eq] at h1
    obtain ⟨⟨h1, h2⟩, x, h3, rfl⟩ := h1
    have h4 := List.all_eq_true.1 usedRests_known _ h3
    simp only [Bool.and_eq_true, decide_eq_true_eq] at h4
    have h5 : compositions.getD r.composition 0 ∈ compositions := by
      rw [List.getD_eq_getElem?_getD, List.getElem?_eq_getElem h2]; exact List.getElem_mem _
    have h6 := hc _ h5
    simp only [loadable, Bool.and_eq_true, Bool.not_eq_true', List.isEmpty_eq_false_iff, List.all_eq_true, List.any_eq_true] at h6
    refine ⟨_, rfl, ?_, h6.1.1, h4.1, h4.2, h6.1.2, ?_⟩
    · exact decode_ne_nil 999 _ h1
    · intro p hp
      obtain ⟨x, hx, hxp⟩ := h6.2 p hp
      rw [Nat.beq_eq] at hxp
      exact known_of_code p.1 (hxp ▸ hx)
  constructor
  · intro e he; cases he
  · intro n hn; obtain ⟨e, rfl, h⟩ := key n hn; exact ⟨e.name, rfl, h.1⟩
  · intro n hn; obtain ⟨e, rfl, h⟩ := key n hn; exact ⟨e.formula, rfl, h.2.1⟩
  · intro n hn; obtain ⟨e, rfl, h⟩ := key n hn; exact ⟨e.state, rfl, h.2.2.1⟩
  · intro n hn
    obtain ⟨e, rfl, h⟩ := key n hn
    exact ⟨pairsOf e.elements, by simp [node, pairsOf_eq], h.2.2.2.2.1, fun p hp => Or.inr (h.2.2.2.2.2 p hp)⟩
  · intro n hn
    obtain ⟨e, rfl, h⟩ := key n hn
    exact Or.inl ⟨rfl, if_pos h.2.2.2.1⟩

theorem acyclic (entries : List Entry) : DatabaseYAML.Acyclic (document entries) := by
  refine ⟨fun _ => 0, ?_⟩
  rintro x y ⟨n, pairs, model, h1, h2, -⟩
  have := List.mem_of_find?_eq_some h1
  obtain ⟨e, he, rfl⟩ := List.mem_map.1 this
  cases h2

/-! ### Distinct names -/

/-- Merge of two lists. -/
def mergeN : Nat → List Nat → List Nat → List Nat
  | 0, a, b => a ++ b
  | _ + 1, [], b => b
  | _ + 1, a, [] => a
  | f + 1, a :: as, b :: bs => bif Nat.ble a b then a :: mergeN f as (b :: bs) else b :: mergeN f (a :: as) bs

theorem mergeN_perm (f : Nat) (a b : List Nat) : (mergeN f a b).Perm (a ++ b) := by
  induction f generalizing a b with
  | zero => exact List.Perm.refl _
  | succ f ih =>
    match a, b with
    | [], b => exact List.Perm.refl _
    | a :: as, [] => simp [mergeN]
    | a :: as, b :: bs =>
      rw [mergeN]
      cases Nat.ble a b with
      | true => exact (ih as (b :: bs)).cons a
      | false =>
        refine ((ih (a :: as) bs).cons b).trans ?_
        exact List.perm_middle.symm

/-- Neighbours are merged. -/
def mergePairs : List (List Nat) → List (List Nat)
  | a :: b :: l => mergeN 5000 a b :: mergePairs l
  | l => l

theorem mergePairs_perm (l : List (List Nat)) : (mergePairs l).flatten.Perm l.flatten := by
  fun_induction mergePairs l with
  | case1 a b l ih =>
    rw [List.flatten_cons, List.flatten_cons, List.flatten_cons, ← List.append_assoc]
    exact (mergeN_perm _ _ _).append ih
  | case2 l _ => exact List.Perm.refl _

/-- `f` passes of merging. -/
def sortN : Nat → List (List Nat) → List Nat
  | 0, l => l.flatten
  | f + 1, l => sortN f (mergePairs l)

theorem sortN_perm (f : Nat) (l : List (List Nat)) : (sortN f l).Perm l.flatten := by
  induction f generalizing l with
  | zero => exact List.Perm.refl _
  | succ f ih => exact (ih _).trans (mergePairs_perm l)

/-- Each number is larger than the one before. -/
def increasing : List Nat → Bool
  | a :: b :: l => Nat.blt a b && increasing (b :: l)
  | _ => true

theorem increasing_nodup (l : List Nat) (h : increasing l = true) : l.Nodup := by
  have : l.Pairwise (· < ·) := by
    rw [← List.isChain_iff_pairwise]
    induction l with
    | nil => exact .nil
    | cons a l ih =>
      cases l with
      | nil => exact .singleton a
      | cons b l =>
        simp only [increasing, Bool.and_eq_true, Nat.blt_eq] at h
        exact .cons_cons h.1 (ih h.2)
  exact this.imp (fun h => Nat.ne_of_lt h)

/-- The numbers are pairwise different. -/
def distinct (f : Nat) (l : List Nat) : Bool := increasing (sortN f (l.map fun a => [a]))

theorem distinct_nodup (f : Nat) (l : List Nat) (h : distinct f l = true) : l.Nodup := by
  have h1 := increasing_nodup _ h
  have h2 := sortN_perm f (l.map fun a => [a])
  rw [h2.nodup_iff] at h1
  have h3 : (l.map fun a => [a]).flatten = l := by
    clear h h1 h2
    induction l with
    | nil => rfl
    | cons a l ih => rw [List.map_cons, List.flatten_cons, ih]; rfl
  rwa [h3] at h1

/-- The number of a text. -/
def encode (s : Str) : Nat := s.foldr (fun c a => c.toNat + 256 * a) 0

theorem encode_decode (f n : Nat) (h : n < 256 ^ f) : encode (decode f n) = n := by
  induction f generalizing n with
  | zero => simp only [Nat.pow_zero] at h; simp [decode, encode]; omega
  | succ f ih =>
    rw [decode]
    split_ifs with h0
    · subst h0; rfl
    · have h1 : n / 256 < 256 ^ f := by
        rw [Nat.div_lt_iff_lt_mul (by norm_num)]; rw [Nat.pow_succ] at h; exact h
      have h2 : (charOf n).toNat = n % 256 := rfl
      have h3 := ih _ h1
      unfold encode at h3 ⊢
      rw [List.foldr_cons, h3, h2]
      omega

theorem nodup_names (compositions : List Nat) (parts : List (List Row)) (f : Nat)
    (h : parts.flatten.all (fun r => Nat.blt r.name (256 ^ 100)) = true)
    (hd : distinct f (parts.flatten.map Row.name) = true) :
    ((entries compositions parts).map Entry.name).Nodup := by
  have h1 := distinct_nodup _ _ hd
  have h2 : ((entries compositions parts).map Entry.name).map encode = parts.flatten.map Row.name := by
    rw [entries, List.map_map, List.map_map]
    apply List.map_congr_left
    intro r hr
    have := List.all_eq_true.1 h r hr
    simp only [Nat.blt_eq] at this
    exact encode_decode _ _ (lt_of_lt_of_le this (Nat.pow_le_pow_right (by norm_num) (by norm_num)))
  exact List.Nodup.of_map encode (by rw [h2]; exact h1)

end Verif.ShippedData
