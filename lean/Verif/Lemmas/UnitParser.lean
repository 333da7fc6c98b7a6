import Verif.Lemmas.Units
import Verif.Lemmas.Strings

namespace Verif.Units

/-- The parsed units of an expression, with the sign of the power. -/
def unitsOf : Expr → Int → DerivedUnit
  | .sym s, sign => [⟨1, s, sign⟩]
  | .paren e, sign => unitsOf e sign
  | .opSym e mul s, sign => unitsOf e sign ++ [⟨1, s, if mul then sign else -sign⟩]
  | .opParen e mul e', sign => unitsOf e sign ++ unitsOf e' (if mul then sign else -sign)

theorem matchParen_other (c : Char) (r : Str) (d : Nat) (h1 : c ≠ '(') (h2 : c ≠ ')') :
    matchParen d (c :: r) = (matchParen d r).map (fun p => (c :: p.1, p.2)) := by
  cases d <;> simp [matchParen, h1, h2]

theorem matchParen_close (r : Str) (d : Nat) :
    matchParen d (')' :: r) = (matchParen (d + 1) r).map (fun p => (')' :: p.1, p.2)) := by
  cases d <;> simp [matchParen]

theorem matchParen_open (r : Str) (d : Nat) :
    matchParen (d + 1) ('(' :: r) = (matchParen d r).map (fun p => ('(' :: p.1, p.2)) := by
  simp [matchParen]

theorem matchParen_plain (s rest : Str) (h : ∀ c ∈ s, c ≠ '(' ∧ c ≠ ')') (d : Nat) :
    matchParen d (s ++ rest) = (matchParen d rest).map (fun p => (s ++ p.1, p.2)) := by
  induction s with
  | nil => simp
  | cons c s ih =>
    have hc := h c (by simp)
    rw [List.cons_append, matchParen_other _ _ _ hc.1 hc.2, ih (fun x hx => h x (List.mem_cons_of_mem _ hx))]
    simp [Function.comp_def]

theorem opChar_cases (mul : Bool) : opChar mul = '*' ∨ opChar mul = '/' := by cases mul <;> simp [opChar]

theorem opChar_props (mul : Bool) : opChar mul ≠ '(' ∧ opChar mul ≠ ')' := by cases mul <;> decide

theorem matchParen_text (e : Expr) (h : e.WF) : ∀ (rest : Str) (d : Nat),
    matchParen d (e.text.reverse ++ rest) = (matchParen d rest).map (fun p => (e.text.reverse ++ p.1, p.2)) := by
  induction e with
  | sym s =>
    intro rest d
    refine matchParen_plain _ _ ?_ d
    intro c hc
    have := (h s (by simp [Expr.symbols])).2 c (by simpa [Expr.text] using hc)
    exact ⟨this.2.2.1, this.2.2.2⟩
  | paren e ih =>
    intro rest d
    have hw : e.WF := h
    simp only [Expr.text, List.reverse_cons, List.reverse_append, List.reverse_nil, List.nil_append, List.append_assoc,
      List.cons_append]
    rw [matchParen_close, ih hw, matchParen_open]
    simp [Function.comp_def]
  | opSym e mul s ih =>
    intro rest d
    have hw : e.WF := fun x hx => h x (by simp [Expr.symbols, hx])
    have hs := h s (by simp [Expr.symbols])
    simp only [Expr.text, List.reverse_append, List.reverse_cons, List.append_assoc, List.cons_append, List.nil_append]
    rw [matchParen_plain s.reverse _ (by
      intro c hc
      have := hs.2 c (by simpa using hc)
      exact ⟨this.2.2.1, this.2.2.2⟩)]
    rw [matchParen_other _ _ _ (opChar_props mul).1 (opChar_props mul).2, ih hw]
    simp [Function.comp_def]
  | opParen e mul e' ih ih' =>
    intro rest d
    have hw : e.WF := fun x hx => h x (by simp [Expr.symbols, hx])
    have hw' : e'.WF := fun x hx => h x (by simp [Expr.symbols, hx])
    simp only [Expr.text, List.reverse_append, List.reverse_cons, List.append_assoc, List.cons_append, List.nil_append,
      List.reverse_nil]
    rw [matchParen_close, ih' hw', matchParen_open]
    rw [matchParen_other _ _ _ (opChar_props mul).1 (opChar_props mul).2, ih hw]
    simp [Function.comp_def]

theorem leaf_scan (s rest : Str) (h : SymbolText s) (hr : ∀ c ∈ rest.head?, c = '*' ∨ c = '/') :
    (s.reverse ++ rest).takeWhile (fun x => !(x == '*' || x == '/')) = s.reverse ∧
    (s.reverse ++ rest).dropWhile (fun x => !(x == '*' || x == '/')) = rest := by
  refine Strings.takeWhile_append_of_head _ _ ?_ ?_
  · intro c hc
    have := h.2 c (by simpa using hc)
    simp [this.1, this.2.1]
  · intro c hc
    rcases hr c hc with rfl | rfl <;> simp

theorem head_reverse (s : Str) (h : SymbolText s) : ∃ c r, s.reverse = c :: r ∧ c ≠ ')' := by
  cases hs : s.reverse with
  | nil => exact absurd (List.reverse_eq_nil_iff.1 hs) h.1
  | cons c r =>
    refine ⟨c, r, rfl, ?_⟩
    have : c ∈ s := by rw [← List.mem_reverse, hs]; simp
    exact (h.2 c this).2.2.2

theorem symbol_not_op (s : Str) (h : SymbolText s) : s ≠ ['*'] ∧ s ≠ ['/'] := by
  constructor
  · rintro rfl; exact (h.2 '*' (by simp)).1 rfl
  · rintro rfl; exact (h.2 '/' (by simp)).2.1 rfl

theorem parseNode_text (e : Expr) (h : e.WF) : ∃ nd, (∀ n b, e.text.length < n → parseNode n b e.text.reverse = .ok nd) ∧
    ∀ sign, flatten nd sign = .ok (unitsOf e sign) := by
  induction e with
  | sym s =>
    have hs := h s (by simp [Expr.symbols])
    refine ⟨.node s .null .null, ?_, ?_⟩
    · intro n b hn
      obtain ⟨n, rfl⟩ : ∃ k, n = k + 1 := ⟨n - 1, by omega⟩
      obtain ⟨c, r, hcr, hc⟩ := head_reverse s hs
      have hl := leaf_scan s [] hs (by simp)
      simp only [List.append_nil] at hl
      simp only [Expr.text]
      rw [hcr] at hl ⊢
      simp only [parseNode, if_neg hc, hl.2]
      rw [← hcr, List.reverse_reverse]
    · intro sign
      simp only [flatten, (symbol_not_op s hs).1, (symbol_not_op s hs).2, if_false, unitsOf]
  | paren e ih =>
    have hw : e.WF := h
    obtain ⟨nd, h1, h2⟩ := ih hw
    refine ⟨nd, ?_, h2⟩
    intro n b hn
    simp only [Expr.text, List.length_cons, List.length_append, List.length_nil] at hn
    obtain ⟨n, rfl⟩ : ∃ k, n = k + 1 := ⟨n - 1, by omega⟩
    have e1 : (Expr.paren e).text.reverse = ')' :: (e.text.reverse ++ ['(']) := by simp [Expr.text]
    have e2 : matchParen 0 (e.text.reverse ++ ['(']) = some (e.text.reverse, []) := by
      rw [matchParen_text e hw]; simp [matchParen]
    rw [e1]
    simp only [parseNode, if_true, e2]
    exact h1 n true (by omega)
  | opSym e mul s ih =>
    have hw : e.WF := fun x hx => h x (by simp [Expr.symbols, hx])
    have hs := h s (by simp [Expr.symbols])
    obtain ⟨nd, h1, h2⟩ := ih hw
    refine ⟨.node [opChar mul] nd (.node s .null .null), ?_, ?_⟩
    · intro n b hn
      simp only [Expr.text, List.length_cons, List.length_append] at hn
      obtain ⟨n, rfl⟩ : ∃ k, n = k + 1 := ⟨n - 1, by omega⟩
      obtain ⟨c, r, hcr, hc⟩ := head_reverse s hs
      have hl := leaf_scan s (opChar mul :: e.text.reverse) hs (by intro c hc; simp at hc; rw [← hc]; exact opChar_cases mul)
      have e1 : (Expr.opSym e mul s).text.reverse = s.reverse ++ opChar mul :: e.text.reverse := by simp [Expr.text]
      rw [e1]
      rw [hcr, List.cons_append] at hl ⊢
      simp only [parseNode, if_neg hc, hl.1, hl.2]
      rw [h1 n false (by omega), ← hcr, List.reverse_reverse]
      simp
    · intro sign
      cases mul <;> simp [flatten, opChar, h2, (symbol_not_op s hs).1, (symbol_not_op s hs).2, unitsOf]
  | opParen e mul e' ih ih' =>
    have hw : e.WF := fun x hx => h x (by simp [Expr.symbols, hx])
    have hw' : e'.WF := fun x hx => h x (by simp [Expr.symbols, hx])
    obtain ⟨nd, h1, h2⟩ := ih hw
    obtain ⟨nd', h1', h2'⟩ := ih' hw'
    refine ⟨.node [opChar mul] nd nd', ?_, ?_⟩
    · intro n b hn
      simp only [Expr.text, List.length_cons, List.length_append, List.length_nil] at hn
      obtain ⟨n, rfl⟩ : ∃ k, n = k + 1 := ⟨n - 1, by omega⟩
      have e1 : (Expr.opParen e mul e').text.reverse = ')' :: (e'.text.reverse ++ '(' :: opChar mul :: e.text.reverse) := by
        simp [Expr.text]
      have e2 : matchParen 0 (e'.text.reverse ++ '(' :: opChar mul :: e.text.reverse) =
          some (e'.text.reverse, opChar mul :: e.text.reverse) := by
        rw [matchParen_text e' hw']; simp [matchParen]
      rw [e1]
      simp only [parseNode, if_true, e2]
      rw [h1 n true (by omega), h1' n true (by omega)]
      simp
    · intro sign
      cases mul <;> simp [flatten, opChar, h2, h2', unitsOf]

theorem parseUnit_text (e : Expr) (h : e.WF) : parseUnit e.text = .ok (unitsOf e 1) := by
  obtain ⟨nd, h1, h2⟩ := parseNode_text e h
  simp [parseUnit, h1 (e.text.length + 1) true (by omega), h2]

theorem factor_append (a b : DerivedUnit) (x y : Rat) (ha : factor a = .ok x) (hb : factor b = .ok y) :
    factor (a ++ b) = .ok (x * y) := by
  induction a generalizing x with
  | nil => simp only [factor, Res.ok.injEq] at ha; simp [← ha, hb]
  | cons u us ih =>
    simp only [factor, List.cons_append] at ha ⊢
    cases h1 : factorSymbol depth u.symbol with
    | throw => rw [h1] at ha; simp at ha
    | ub => rw [h1] at ha; simp at ha
    | ok f =>
      rw [h1] at ha
      simp only [Res.bind_ok'] at ha ⊢
      cases h2 : factor us with
      | throw => rw [h2] at ha; simp at ha
      | ub => rw [h2] at ha; simp at ha
      | ok g =>
        rw [h2] at ha
        simp only [Res.bind_ok', Res.ok.injEq] at ha
        rw [ih g h2]
        simp only [Res.bind_ok', ← ha]
        congr 1; ring

theorem factor_single (F : Str → Rat) (hF : IsFactor F) (s : Str) (hs : Known s) (sign : Int) :
    factor [⟨1, s, sign⟩] = .ok (F s ^ sign) := by
  obtain ⟨q, -, h, -⟩ := known_factor s hs
  have := factorSymbol_ok F hF _ _ _ h
  simp [factor, h, this]

theorem factor_unitsOf (F : Str → Rat) (hF : IsFactor F) (e : Expr) (hk : ∀ s ∈ e.symbols, Known s) :
    ∀ sign, factor (unitsOf e sign) = .ok ((e.value F) ^ sign) := by
  induction e with
  | sym s => intro sign; exact factor_single F hF s (hk s (by simp [Expr.symbols])) sign
  | paren e ih => intro sign; exact ih hk sign
  | opSym e mul s ih =>
    intro sign
    have h1 := ih (fun x hx => hk x (by simp [Expr.symbols, hx])) sign
    have h2 := factor_single F hF s (hk s (by simp [Expr.symbols]))
    simp only [unitsOf]
    cases mul
    · rw [factor_append _ _ _ _ h1 (h2 _)]
      simp only [Bool.false_eq_true, if_false, Expr.value, zpow_neg, div_eq_mul_inv, mul_zpow, inv_zpow]
    · rw [factor_append _ _ _ _ h1 (h2 _)]
      simp only [if_true, Expr.value, mul_zpow]
  | opParen e mul e' ih ih' =>
    intro sign
    have h1 := ih (fun x hx => hk x (by simp [Expr.symbols, hx])) sign
    have h2 := ih' (fun x hx => hk x (by simp [Expr.symbols, hx]))
    simp only [unitsOf]
    cases mul
    · rw [factor_append _ _ _ _ h1 (h2 _)]
      simp only [Bool.false_eq_true, if_false, Expr.value, zpow_neg, div_eq_mul_inv, mul_zpow, inv_zpow]
    · rw [factor_append _ _ _ _ h1 (h2 _)]
      simp only [if_true, Expr.value, mul_zpow]

theorem dimDerived_append (a b : DerivedUnit) (m : DimMap) :
    dimDerived (a ++ b) m = (dimDerived a m).bind fun m => dimDerived b m := by
  induction a generalizing m with
  | nil => rfl
  | cons u us ih =>
    simp only [List.cons_append, dimDerived]
    cases dimSymbol depth u.symbol u.power m <;> simp [ih]

theorem dim_single (D : Str → Str → Int) (hD : IsDim D) (s : Str) (hs : Known s) (sign : Int) (m : DimMap) :
    ∃ m', dimDerived [⟨1, s, sign⟩] m = .ok m' ∧ (∀ k, get m' k = get m k + sign * D s k) ∧
      ((m.map Prod.fst).Nodup → (m'.map Prod.fst).Nodup) := by
  obtain ⟨m', h⟩ := known_dim s hs sign m
  exact ⟨m', by simp [dimDerived, h], dimSymbol_ok D hD _ _ _ _ _ h⟩

theorem dim_unitsOf (D : Str → Str → Int) (hD : IsDim D) (e : Expr) (hk : ∀ s ∈ e.symbols, Known s) :
    ∀ sign m, ∃ m', dimDerived (unitsOf e sign) m = .ok m' ∧ (∀ k, get m' k = get m k + sign * e.dim D k) ∧
      ((m.map Prod.fst).Nodup → (m'.map Prod.fst).Nodup) := by
  induction e with
  | sym s => intro sign m; exact dim_single D hD s (hk s (by simp [Expr.symbols])) sign m
  | paren e ih => intro sign m; exact ih hk sign m
  | opSym e mul s ih =>
    intro sign m
    obtain ⟨m1, h1, g1, n1⟩ := ih (fun x hx => hk x (by simp [Expr.symbols, hx])) sign m
    obtain ⟨m2, h2, g2, n2⟩ := dim_single D hD s (hk s (by simp [Expr.symbols])) (if mul then sign else -sign) m1
    refine ⟨m2, by simp only [unitsOf, dimDerived_append, h1, Res.bind_ok', h2], fun k => ?_, fun h => n2 (n1 h)⟩
    rw [g2, g1]
    cases mul <;> simp [Expr.dim] <;> ring
  | opParen e mul e' ih ih' =>
    intro sign m
    obtain ⟨m1, h1, g1, n1⟩ := ih (fun x hx => hk x (by simp [Expr.symbols, hx])) sign m
    obtain ⟨m2, h2, g2, n2⟩ := ih' (fun x hx => hk x (by simp [Expr.symbols, hx])) (if mul then sign else -sign) m1
    refine ⟨m2, by simp only [unitsOf, dimDerived_append, h1, Res.bind_ok', h2], fun k => ?_, fun h => n2 (n1 h)⟩
    rw [g2, g1]
    cases mul <;> simp [Expr.dim] <;> ring

theorem find_filter (m : DimMap) (h : (m.map Prod.fst).Nodup) (k : Str) :
    find (removeZero m) k = match find m k with | some v => if v = 0 then none else some v | none => none := by
  induction m with
  | nil => rfl
  | cons p m ih =>
    obtain ⟨a, v⟩ := p
    simp only [List.map_cons, List.nodup_cons] at h
    have ih' := ih h.2
    simp only [removeZero] at ih' ⊢
    by_cases hv : v = 0
    · subst hv
      rw [List.filter_cons_of_neg (by simp), ih']
      simp only [find]
      by_cases hk : a = k
      · subst hk
        have : find m a = none := by
          cases hf : find m a with
          | none => rfl
          | some w => exact absurd (List.mem_map.2 ⟨_, find_mem _ _ _ hf, rfl⟩) h.1
        simp [this]
      · simp [hk]
    · rw [List.filter_cons_of_pos (by simpa using hv)]
      simp only [find]
      by_cases hk : a = k
      · simp [hk, hv]
      · rw [if_neg hk, if_neg hk]; exact ih'

theorem mem_find (m : DimMap) (h : (m.map Prod.fst).Nodup) (k : Str) (v : Int) (hm : (k, v) ∈ m) : find m k = some v := by
  induction m with
  | nil => simp at hm
  | cons p m ih =>
    obtain ⟨a, w⟩ := p
    simp only [List.map_cons, List.nodup_cons] at h
    simp only [find]
    rcases List.mem_cons.1 hm with hh | hh
    · simp only [Prod.mk.injEq] at hh; simp [hh.1, hh.2]
    · have : a ≠ k := by rintro rfl; exact h.1 (List.mem_map.2 ⟨_, hh, rfl⟩)
      simp [this, ih h.2 hh]

theorem removeZero_nodup (m : DimMap) (h : (m.map Prod.fst).Nodup) : ((removeZero m).map Prod.fst).Nodup :=
  List.Nodup.sublist (List.Sublist.map _ List.filter_sublist) h

theorem mapEq_iff (a b : DimMap) (ha : (a.map Prod.fst).Nodup) (hb : (b.map Prod.fst).Nodup) :
    mapEq (removeZero a) (removeZero b) = true ↔ ∀ k, get a k = get b k := by
  have hget : ∀ m : DimMap, (m.map Prod.fst).Nodup → ∀ k, get m k = get (removeZero m) k := by
    intro m hm k
    simp only [get, find_filter m hm]
    cases find m k with
    | none => rfl
    | some v => by_cases hv : v = 0 <;> simp [hv]
  have hnz : ∀ m : DimMap, (m.map Prod.fst).Nodup → ∀ k v, find (removeZero m) k = some v → v ≠ 0 := by
    intro m hm k v h
    have := find_mem _ _ _ h
    simp only [removeZero, List.mem_filter] at this
    simpa using this.2
  have hfind : ∀ m m' : DimMap, (m.map Prod.fst).Nodup → (m'.map Prod.fst).Nodup → (∀ k, get m k = get m' k) →
      ∀ k, find (removeZero m) k = find (removeZero m') k := by
    intro m m' hm hm' h k
    have := h k
    rw [hget m hm, hget m' hm'] at this
    simp only [get] at this
    cases h1 : find (removeZero m) k with
    | none =>
      cases h2 : find (removeZero m') k with
      | none => rfl
      | some w => rw [h1, h2] at this; exact absurd this.symm (hnz m' hm' k w h2)
    | some v =>
      cases h2 : find (removeZero m') k with
      | none => rw [h1, h2] at this; exact absurd this (hnz m hm k v h1)
      | some w => rw [h1, h2] at this; simp at this; simp [this]
  constructor
  · intro h
    simp only [mapEq, Bool.and_eq_true, List.all_eq_true, decide_eq_true_eq] at h
    intro k
    rw [hget a ha, hget b hb]
    simp only [get]
    cases h1 : find (removeZero a) k with
    | some v => rw [h.1 _ (find_mem _ _ _ h1)]
    | none =>
      cases h2 : find (removeZero b) k with
      | none => rfl
      | some w => have := h.2 _ (find_mem _ _ _ h2); simp only at this; rw [h1] at this; simp at this
  · intro h
    have hf := hfind a b ha hb h
    simp only [mapEq, Bool.and_eq_true, List.all_eq_true, decide_eq_true_eq]
    constructor
    · rintro ⟨k, v⟩ hm
      rw [← hf]; exact mem_find _ (removeZero_nodup a ha) _ _ hm
    · rintro ⟨k, v⟩ hm
      rw [hf]; exact mem_find _ (removeZero_nodup b hb) _ _ hm

end Verif.Units
