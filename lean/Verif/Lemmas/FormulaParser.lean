import Verif.Model.FormulaParser
import Verif.Spec.Formula
import Verif.Lemmas.Strings
import Mathlib.Tactic.Ring
import Mathlib.Data.Rat.Lemmas
import Mathlib.Algebra.Ring.Rat

namespace Verif.FormulaParser

open Verif.Numbers Verif.Formula

/-! ### Numbers -/

theorem digitChar_isDigit : ∀ d : Fin 10, (digitChar d).isDigit = true := by decide
theorem digitChar_val : ∀ d : Fin 10, digitVal (digitChar d) = d.val := by decide
theorem digitChar_ne_dot : ∀ d : Fin 10, digitChar d ≠ '.' := by decide
theorem digitChar_ne_minus : ∀ d : Fin 10, digitChar d ≠ '-' := by decide
theorem digitChar_ne_plus : ∀ d : Fin 10, digitChar d ≠ '+' := by decide
theorem digitChar_ne_open : ∀ d : Fin 10, digitChar d ≠ '(' := by decide
theorem digitChar_ne_close : ∀ d : Fin 10, digitChar d ≠ ')' := by decide

theorem digitsText_all (ds : Digits) : ∀ c ∈ digitsText ds, c.isDigit = true := by
  intro c hc
  obtain ⟨d, _, rfl⟩ := List.mem_map.1 hc
  exact digitChar_isDigit d

theorem digitsVal_foldl (ds : Digits) (a : Nat) :
    (digitsText ds).foldl (fun a c => 10 * a + digitVal c) a = a * 10 ^ ds.length + natVal ds := by
  induction ds generalizing a with
  | nil => simp [digitsText, natVal]
  | cons d ds ih =>
    have := ih (10 * a + d.val)
    simp only [digitsText, List.map_cons, List.foldl_cons, natVal, digitChar_val, List.length_cons] at this ⊢
    rw [this]
    ring

theorem digitsVal_text (ds : Digits) : digitsVal (digitsText ds) = natVal ds := by
  have := digitsVal_foldl ds 0
  simpa [digitsVal] using this

theorem digitsText_length (ds : Digits) : (digitsText ds).length = ds.length := by simp [digitsText]

theorem takeWhile_all (p : Char → Bool) (a b : List Char) (ha : ∀ c ∈ a, p c = true)
    (hb : ∀ c ∈ b.head?, p c = false) : (a ++ b).takeWhile p = a ∧ (a ++ b).dropWhile p = b :=
  Strings.takeWhile_append_of_head a b ha hb

theorem decimalPrefix_int (ds : Digits) (b : List Char) (hb : ∀ c ∈ b.head?, c.isDigit = false ∧ c ≠ '.') :
    decimalPrefix (digitsText ds ++ b) = natVal ds := by
  obtain ⟨h1, h2⟩ := takeWhile_all Char.isDigit (digitsText ds) b (digitsText_all ds) (fun c hc => (hb c hc).1)
  unfold decimalPrefix
  simp only [h1, h2]
  split
  · rename_i fr
    exact absurd rfl (hb '.' (by simp)).2
  · rw [digitsVal_text]

theorem decimalPrefix_dec (ds fs : Digits) (b : List Char) (hb : ∀ c ∈ b.head?, c.isDigit = false) :
    decimalPrefix (digitsText ds ++ '.' :: digitsText fs ++ b) =
      natVal ds + (natVal fs : Rat) / (10 ^ fs.length : Nat) := by
  obtain ⟨h1, h2⟩ := takeWhile_all Char.isDigit (digitsText ds) ('.' :: digitsText fs ++ b) (digitsText_all ds)
    (by intro c hc; simp at hc; subst hc; decide)
  obtain ⟨h3, _⟩ := takeWhile_all Char.isDigit (digitsText fs) b (digitsText_all fs) hb
  unfold decimalPrefix
  rw [List.append_assoc, h1, h2]
  simp only [List.cons_append, h3, digitsVal_text, digitsText_length]

theorem atof_of_head (s : List Char) (h1 : s.head? ≠ some '-') (h2 : s.head? ≠ some '+') : atof s = decimalPrefix s := by
  cases s with
  | nil => rfl
  | cons c s =>
    simp only [List.head?_cons, ne_eq, Option.some.injEq] at h1 h2
    unfold atof
    split
    · rename_i h; simp at h; exact absurd h.1 h1
    · rename_i h; simp at h; exact absurd h.1 h2
    · rfl

theorem digitsText_head (ds : Digits) (b : List Char) (x : Char) (hx : x.isDigit = false)
    (hb : b.head? ≠ some x) : (digitsText ds ++ b).head? ≠ some x := by
  cases ds with
  | nil => simpa [digitsText] using hb
  | cons d ds =>
    simp only [digitsText, List.map_cons, List.cons_append, List.head?_cons, ne_eq, Option.some.injEq]
    intro h
    have := digitChar_isDigit d
    rw [h, hx] at this
    simp at this

/-- Characters that cannot follow a number or symbol as part of it. -/
def Stops (s : Str) : Prop := ∀ c ∈ s.head?, c.isDigit = false ∧ c ≠ '.' ∧ (c.isUpper || !c.isAlpha) = true

theorem parseNumAtoms_num (n : Num) (hn : n.WF) (b : Str) (hb : Stops b) :
    parseNumAtoms (n.text ++ b) = (n.val, b) := by
  have hb' : ∀ c ∈ b.head?, (c.isDigit || c == '.') = false := by
    intro c hc
    simp [(hb c hc).1, (hb c hc).2.1]
  cases n with
  | implicit =>
    cases b with
    | nil => rfl
    | cons c b =>
      have := hb' c (by simp)
      simp only [Num.text, Num.val, List.nil_append, parseNumAtoms, this]
      rfl
  | int ds =>
    obtain ⟨h1, h2⟩ := takeWhile_all (fun x => x.isDigit || x == '.') (digitsText ds) b
      (by intro c hc; simp [digitsText_all ds c hc]) hb'
    cases ds with
    | nil => exact absurd rfl hn
    | cons d ds =>
      have hd := digitChar_isDigit d
      have e : (Num.int (d :: ds)).text ++ b = digitChar d :: (digitsText ds ++ b) := rfl
      have e' : digitChar d :: (digitsText ds ++ b) = digitsText (d :: ds) ++ b := rfl
      rw [e, parseNumAtoms]
      simp only [hd, Bool.true_or, Bool.not_true, Bool.false_eq_true, if_false]
      rw [e', h1, h2, atof_of_head]
      · have := decimalPrefix_int (d :: ds) [] (by simp)
        simp only [List.append_nil] at this
        rw [this]; rfl
      · simpa using digitsText_head (d :: ds) [] '-' (by decide) (by simp)
      · simpa using digitsText_head (d :: ds) [] '+' (by decide) (by simp)
  | dec ds fs =>
    obtain ⟨h1, h2⟩ := takeWhile_all (fun x => x.isDigit || x == '.') (digitsText ds ++ '.' :: digitsText fs) b
      (by
        intro c hc
        simp only [List.mem_append, List.mem_cons] at hc
        rcases hc with hc | rfl | hc
        · simp [digitsText_all ds c hc]
        · simp
        · simp [digitsText_all fs c hc]) hb'
    have hcons : ∃ c t, digitsText ds ++ '.' :: digitsText fs = c :: t ∧ (c.isDigit || c == '.') = true := by
      cases ds with
      | nil => exact ⟨'.', _, rfl, by decide⟩
      | cons d ds => exact ⟨digitChar d, _, rfl, by simp [digitChar_isDigit]⟩
    obtain ⟨c, t, hct, hc⟩ := hcons
    have e : (Num.dec ds fs).text ++ b = c :: (t ++ b) := by
      show (digitsText ds ++ '.' :: digitsText fs) ++ b = _
      rw [hct]; rfl
    rw [e, parseNumAtoms]
    simp only [hc, Bool.not_true, Bool.false_eq_true, if_false]
    have e' : c :: (t ++ b) = (digitsText ds ++ '.' :: digitsText fs) ++ b := by rw [hct]; rfl
    rw [e', h1, h2, atof_of_head]
    · have := decimalPrefix_dec ds fs [] (by simp)
      simp only [List.append_nil] at this
      rw [this]; rfl
    · exact digitsText_head ds _ '-' (by decide) (by simp)
    · exact digitsText_head ds _ '+' (by decide) (by simp)

/-! ### Symbols -/

theorem upper_facts (c : Char) (h : c.isUpper = true) :
    c.isDigit = false ∧ c ≠ '.' ∧ c ≠ '(' ∧ c ≠ ')' ∧ c.isLower = false ∧ c.isAlpha = true := by
  simp only [Char.isUpper, Char.isDigit, Char.isLower, Char.isAlpha, Bool.and_eq_true, decide_eq_true_eq,
    UInt32.le_iff_toNat_le, ge_iff_le] at *
  have e1 : 'A'.val.toNat = 65 := rfl
  have e2 : 'Z'.val.toNat = 90 := rfl
  have e3 : '0'.val.toNat = 48 := rfl
  have e4 : '9'.val.toNat = 57 := rfl
  have e5 : 'a'.val.toNat = 97 := rfl
  have e6 : 'z'.val.toNat = 122 := rfl
  simp only [Bool.and_eq_false_iff, decide_eq_false_iff_not, Bool.or_eq_true, Bool.and_eq_true, decide_eq_true_eq,
    UInt32.le_iff_toNat_le] at *
  refine ⟨by omega, ?_, ?_, ?_, by omega, by omega⟩
  all_goals rintro rfl; revert h; decide

theorem lower_facts (c : Char) (h : c.isLower = true) :
    c.isDigit = false ∧ c ≠ '.' ∧ c ≠ '(' ∧ c ≠ ')' ∧ c.isUpper = false ∧ c.isAlpha = true := by
  simp only [Char.isUpper, Char.isDigit, Char.isLower, Char.isAlpha, Bool.and_eq_true, decide_eq_true_eq,
    UInt32.le_iff_toNat_le, ge_iff_le] at *
  have e1 : 'A'.val.toNat = 65 := rfl
  have e2 : 'Z'.val.toNat = 90 := rfl
  have e3 : '0'.val.toNat = 48 := rfl
  have e4 : '9'.val.toNat = 57 := rfl
  have e5 : 'a'.val.toNat = 97 := rfl
  have e6 : 'z'.val.toNat = 122 := rfl
  simp only [Bool.and_eq_false_iff, decide_eq_false_iff_not, Bool.or_eq_true, Bool.and_eq_true, decide_eq_true_eq,
    UInt32.le_iff_toNat_le] at *
  refine ⟨by omega, ?_, ?_, ?_, by omega, by omega⟩
  all_goals rintro rfl; revert h; decide

theorem parseElementAtom_symbol (c : Char) (t b : Str) (hc : c.isUpper = true) (ht : ∀ x ∈ t, x.isLower = true)
    (hb : ∀ x ∈ b.head?, (x.isUpper || !x.isAlpha) = true) : parseElementAtom (c :: t ++ b) = (c :: t, b) := by
  obtain ⟨h1, h2⟩ := takeWhile_all (fun x => !(x.isUpper || !x.isAlpha)) t b
    (by intro x hx; simp [(lower_facts x (ht x hx)).2.2.2.2.1, (lower_facts x (ht x hx)).2.2.2.2.2])
    (by intro x hx; rw [hb x hx]; rfl)
  rw [List.cons_append, parseElementAtom]
  simp only [h1, h2, (upper_facts c hc).2.2.2.2.1, Bool.false_eq_true, if_false]

/-! ### Parentheses -/

theorem findMatching_skip_char (l : Int) (c : Char) (s : Str) (h1 : c ≠ '(') (h2 : c ≠ ')') :
    Strings.findMatchingBracket l (c :: s) =
      (c :: (Strings.findMatchingBracket l s).1, (Strings.findMatchingBracket l s).2) := by
  rw [Strings.findMatchingBracket, if_neg (by simp [h2])]
  simp [Strings.nextLevel, h1, h2]

theorem findMatching_skip (l : Int) (a s : Str) (h : ∀ c ∈ a, c ≠ '(' ∧ c ≠ ')') :
    Strings.findMatchingBracket l (a ++ s) =
      (a ++ (Strings.findMatchingBracket l s).1, (Strings.findMatchingBracket l s).2) := by
  induction a with
  | nil => rfl
  | cons c a ih =>
    rw [List.cons_append, findMatching_skip_char l c _ (h c (by simp)).1 (h c (by simp)).2,
      ih (fun x hx => h x (List.mem_cons_of_mem _ hx))]
    rfl

theorem digit_facts (c : Char) (h : c.isDigit = true) : c ≠ '(' ∧ c ≠ ')' := by
  constructor <;> (rintro rfl; revert h; decide)

theorem num_no_paren (n : Num) : ∀ c ∈ n.text, c ≠ '(' ∧ c ≠ ')' := by
  intro c hc
  cases n with
  | implicit => simp [Num.text] at hc
  | int ds => exact digit_facts c (digitsText_all ds c hc)
  | dec ds fs =>
    simp only [Num.text, List.mem_append, List.mem_cons] at hc
    rcases hc with hc | rfl | hc
    · exact digit_facts c (digitsText_all ds c hc)
    · decide
    · exact digit_facts c (digitsText_all fs c hc)

theorem symbol_no_paren (s : Str) (hs : IsSymbol s) : ∀ c ∈ s, c ≠ '(' ∧ c ≠ ')' := by
  obtain ⟨c, t, rfl, hc, ht⟩ := hs
  intro x hx
  rcases List.mem_cons.1 hx with rfl | hx
  · exact ⟨(upper_facts x hc).2.2.1, (upper_facts x hc).2.2.2.1⟩
  · exact ⟨(lower_facts x (ht x hx)).2.2.1, (lower_facts x (ht x hx)).2.2.2.1⟩

/-- The written form of a formula is skipped when looking for a closing parenthesis. -/
theorem findMatching_formula (f : Formula) (hf : f.WF) : ∀ (l : Nat) (s : Str),
    Strings.findMatchingBracket (l : Int) (f.text ++ s) =
      (f.text ++ (Strings.findMatchingBracket (l : Int) s).1, (Strings.findMatchingBracket (l : Int) s).2) := by
  induction f with
  | nil => intro l s; rfl
  | elem sym n rest ih =>
    intro l s
    obtain ⟨h1, _, h3⟩ := hf
    simp only [Formula.text, List.append_assoc]
    rw [findMatching_skip _ sym _ (symbol_no_paren sym h1), findMatching_skip _ n.text _ (num_no_paren n), ih h3]
  | group inner n rest ih1 ih2 =>
    intro l s
    obtain ⟨h1, _, h3⟩ := hf
    simp only [Formula.text, List.append_assoc, List.cons_append]
    rw [Strings.findMatchingBracket, if_neg (by simp)]
    have e1 : Strings.nextLevel (l : Int) '(' = ((l + 1 : Nat) : Int) := by simp [Strings.nextLevel]
    rw [e1, ih1 h1]
    have e2 : Strings.nextLevel ((l + 1 : Nat) : Int) ')' = (l : Int) := by simp [Strings.nextLevel]
    rw [Strings.findMatchingBracket, e2, if_neg (by omega)]
    rw [findMatching_skip _ n.text _ (num_no_paren n), ih2 h3]

/-! ### Formulas -/

/-- The result container after a formula has been read. -/
def addFormula (scalar : Rat) : Formula → List (Str × Rat) → List (Str × Rat)
  | .nil, res => res
  | .elem s n rest, res => addFormula scalar rest (addTo s (scalar * n.val) res)
  | .group inner n rest, res => addFormula scalar rest (addFormula (scalar * n.val) inner res)

theorem stops_append (f : Formula) (hf : f.WF) (tail : Str) (ht : Stops tail) : Stops (f.text ++ tail) := by
  cases f with
  | nil => exact ht
  | elem s n rest =>
    obtain ⟨⟨c, t, rfl, hc, _⟩, _⟩ := hf
    intro x hx
    simp [Formula.text] at hx
    subst hx
    exact ⟨(upper_facts c hc).1, (upper_facts c hc).2.1, by simp [hc]⟩
  | group inner n rest =>
    intro x hx
    simp [Formula.text] at hx
    subst hx
    decide

theorem Stops.close (s : Str) : Stops (')' :: s) := by
  intro c hc; simp at hc; subst hc; decide

theorem stops_nil : Stops [] := by intro c hc; simp at hc

theorem stops_num_alpha (n : Num) (b : Str) (hb : Stops b) :
    ∀ x ∈ (n.text ++ b).head?, (x.isUpper || !x.isAlpha) = true := by
  have hdig : ∀ d : Fin 10, ((digitChar d).isUpper || !(digitChar d).isAlpha) = true := by decide
  intro x hx
  cases n with
  | implicit => exact (hb x hx).2.2
  | int ds =>
    cases ds with
    | nil => exact (hb x hx).2.2
    | cons d ds => simp [Num.text, digitsText] at hx; subst hx; exact hdig d
  | dec ds fs =>
    cases ds with
    | nil => simp [Num.text, digitsText] at hx; subst hx; decide
    | cons d ds => simp [Num.text, digitsText] at hx; subst hx; exact hdig d

theorem parseAux_formula (f : Formula) (hf : f.WF) : ∀ (tail : Str) (res : List (Str × Rat)) (scalar : Rat),
    Stops tail → parseAux (f.text ++ tail) res scalar = parseAux tail (addFormula scalar f res) scalar := by
  induction f with
  | nil => intro tail res scalar _; rfl
  | elem sym n rest ih =>
    intro tail res scalar ht
    obtain ⟨⟨c, t, rfl, hc, hlow⟩, hn, hr⟩ := hf
    have hstop := stops_append rest hr tail ht
    have e : (Formula.elem (c :: t) n rest).text ++ tail = c :: t ++ (n.text ++ (rest.text ++ tail)) := by
      simp [Formula.text, List.append_assoc]
    have hatom := parseElementAtom_symbol c t (n.text ++ (rest.text ++ tail)) hc hlow (stops_num_alpha n _ hstop)
    have hnum := parseNumAtoms_num n hn (rest.text ++ tail) hstop
    rw [e, List.cons_append, parseAux]
    rw [if_neg (by simp [hc]), if_neg (upper_facts c hc).2.2.1, if_neg (upper_facts c hc).2.1]
    rw [List.cons_append] at hatom
    rw [hatom]
    simp only [hnum]
    exact ih hr tail _ scalar ht
  | group inner n rest ih1 ih2 =>
    intro tail res scalar ht
    obtain ⟨hi, hn, hr⟩ := hf
    have hstop := stops_append rest hr tail ht
    have e : (Formula.group inner n rest).text ++ tail =
        '(' :: (inner.text ++ ')' :: (n.text ++ (rest.text ++ tail))) := by
      simp [Formula.text, List.append_assoc]
    have hm := findMatching_formula inner hi 0 (')' :: (n.text ++ (rest.text ++ tail)))
    have hclose : Strings.findMatchingBracket ((0 : Nat) : Int) (')' :: (n.text ++ (rest.text ++ tail))) =
        ([], ')' :: (n.text ++ (rest.text ++ tail))) := by
      rw [Strings.findMatchingBracket, if_pos]; simp [Strings.nextLevel]
    rw [hclose] at hm
    simp only [List.append_nil] at hm
    have hm' : Strings.findMatchingBracket 0 (inner.text ++ ')' :: (n.text ++ (rest.text ++ tail))) =
        (inner.text, ')' :: (n.text ++ (rest.text ++ tail))) := hm
    have hnum := parseNumAtoms_num n hn (rest.text ++ tail) hstop
    rw [e, parseAux]
    rw [if_neg (by simp), if_pos rfl]
    split
    · rename_i h
      rw [hm'] at h; simp at h
    · rename_i c after h
      rw [hm'] at h
      simp only [List.cons.injEq] at h
      obtain ⟨_, rfl⟩ := h
      rw [hm', hnum]
      simp only
      have h1 := ih1 hi [] res (scalar * n.val) stops_nil
      simp only [List.append_nil] at h1
      rw [h1, parseAux]
      simp only [Res.bind_ok']
      exact ih2 hr tail _ scalar ht

theorem parseAux_ignored (tail : Str) (h : ∀ c ∈ tail, c ≠ '(' ∧ c ≠ '.' ∧ c.isUpper = false)
    (res : List (Str × Rat)) (scalar : Rat) : parseAux tail res scalar = .ok res := by
  induction tail with
  | nil => rw [parseAux]
  | cons c tail ih =>
    obtain ⟨h1, h2, h3⟩ := h c (by simp)
    rw [parseAux, if_pos ⟨h1, h2, by simp [h3]⟩]
    exact ih (fun x hx => h x (List.mem_cons_of_mem _ hx))

/-! ### The result container -/

/-- Coefficient of `e` in a list of pairs (zero if absent). -/
def coeff (e : Str) : List (Str × Rat) → Rat
  | [] => 0
  | (k, v) :: rest => if k = e then v else coeff e rest

theorem coeff_addTo (s e : Str) (x : Rat) (l : List (Str × Rat)) :
    coeff e (addTo s x l) = coeff e l + if s = e then x else 0 := by
  induction l with
  | nil => simp [addTo, coeff]
  | cons kv l ih =>
    obtain ⟨k, v⟩ := kv
    simp only [addTo]
    by_cases h1 : k = s
    · subst h1
      by_cases h2 : k = e
      · simp [coeff, h2]
      · simp [coeff, h2]
    · rw [if_neg h1]
      by_cases h2 : k = e
      · subst h2
        simp [coeff, Ne.symm h1]
      · simp [coeff, h2, ih]

theorem keys_addTo (s : Str) (x : Rat) (l : List (Str × Rat)) (e : Str) :
    e ∈ (addTo s x l).map Prod.fst ↔ e ∈ l.map Prod.fst ∨ e = s := by
  induction l with
  | nil => simp [addTo]
  | cons kv l ih =>
    obtain ⟨k, v⟩ := kv
    simp only [addTo]
    by_cases h1 : k = s
    · subst h1; simp only [if_true, List.map_cons, List.mem_cons]; tauto
    · simp only [if_neg h1, List.map_cons, List.mem_cons, ih]; tauto

theorem nodup_addTo (s : Str) (x : Rat) (l : List (Str × Rat)) (h : (l.map Prod.fst).Nodup) :
    ((addTo s x l).map Prod.fst).Nodup := by
  induction l with
  | nil => simp [addTo]
  | cons kv l ih =>
    obtain ⟨k, v⟩ := kv
    simp only [List.map_cons, List.nodup_cons] at h
    simp only [addTo]
    by_cases h1 : k = s
    · rw [if_pos h1]
      simp only [List.map_cons, List.nodup_cons]
      exact h
    · simp only [if_neg h1, List.map_cons, List.nodup_cons, keys_addTo]
      exact ⟨fun hc => hc.elim h.1 h1, ih h.2⟩

theorem addFormula_coeff (f : Formula) (e : Str) : ∀ (scalar : Rat) (res : List (Str × Rat)),
    coeff e (addFormula scalar f res) = coeff e res + scalar * f.atoms e := by
  induction f with
  | nil => intro scalar res; simp [addFormula, Formula.atoms]
  | elem s n rest ih =>
    intro scalar res
    simp only [addFormula, Formula.atoms]
    rw [ih, coeff_addTo]
    split <;> ring
  | group inner n rest ih1 ih2 =>
    intro scalar res
    simp only [addFormula, Formula.atoms]
    rw [ih2, ih1]
    ring

theorem addFormula_keys (f : Formula) (e : Str) : ∀ (scalar : Rat) (res : List (Str × Rat)),
    e ∈ (addFormula scalar f res).map Prod.fst ↔ e ∈ res.map Prod.fst ∨ f.Mentions e := by
  induction f with
  | nil => intro scalar res; simp [addFormula, Formula.Mentions]
  | elem s n rest ih =>
    intro scalar res
    simp only [addFormula, Formula.Mentions, ih, keys_addTo]
    constructor
    · rintro ((h | h) | h) <;> simp [h]
    · rintro (h | h | h) <;> simp [h]
  | group inner n rest ih1 ih2 =>
    intro scalar res
    simp only [addFormula, Formula.Mentions, ih2, ih1, or_assoc]

theorem addFormula_nodup (f : Formula) : ∀ (scalar : Rat) (res : List (Str × Rat)),
    (res.map Prod.fst).Nodup → ((addFormula scalar f res).map Prod.fst).Nodup := by
  induction f with
  | nil => intro scalar res h; exact h
  | elem s n rest ih => intro scalar res h; exact ih _ _ (nodup_addTo _ _ _ h)
  | group inner n rest ih1 ih2 => intro scalar res h; exact ih2 _ _ (ih1 _ _ h)

theorem coeff_of_mem (e : Str) (v : Rat) (l : List (Str × Rat)) (hn : (l.map Prod.fst).Nodup) (h : (e, v) ∈ l) :
    coeff e l = v := by
  induction l with
  | nil => simp at h
  | cons kv l ih =>
    obtain ⟨k, w⟩ := kv
    simp only [List.map_cons, List.nodup_cons] at hn
    rcases List.mem_cons.1 h with heq | h
    · simp only [Prod.mk.injEq] at heq
      simp [coeff, heq.1, heq.2]
    · have : k ≠ e := by
        rintro rfl
        exact hn.1 (List.mem_map_of_mem (f := Prod.fst) h)
      simp [coeff, this, ih hn.2 h]

end Verif.FormulaParser
