import Verif.Lemmas.UnitParser

/-!
# Theorems C14 to C16: unit conversion
-/

namespace Verif.Units

/-! ## C14: temperatures -/

/-- **C14.** For every thermodynamic temperature `t` and every two accepted temperature units, converting the reading of `t`
on the first scale gives the reading of `t` on the second. -/
theorem C14_temperature_scales (a b : List Char) (sa sb : Scale) (ha : (a, sa) ∈ scaleNames) (hb : (b, sb) ∈ scaleNames)
    (t : Rat) : convert (sa.reading t) a b = .ok (sb.reading t) := convert_reading a b sa sb ha hb t

/-- **C14 (round trip, composition, order).** For all temperature units `a`, `b`, `c`: conversion succeeds, converting back
returns the value, converting through `b` is converting directly, and order is preserved. -/
theorem C14_temperature_consistent (a b c : List Char) (ha : isTemperature a = true) (hb : isTemperature b = true)
    (hc : isTemperature c = true) (x : Rat) :
    ∃ y, convert x a b = .ok y ∧ convert y b a = .ok x ∧ convert y b c = convert x a c ∧
      ∀ x' y', convert x' a b = .ok y' → (x < x' ↔ y < y') := by
  obtain ⟨sa, ha⟩ := (isTemperature_iff a).1 ha
  obtain ⟨sb, hb⟩ := (isTemperature_iff b).1 hb
  obtain ⟨sc, hc⟩ := (isTemperature_iff c).1 hc
  obtain ⟨t, rfl⟩ := reading_surj sa x
  refine ⟨sb.reading t, convert_reading a b sa sb ha hb t, convert_reading b a sb sa hb ha t, ?_, ?_⟩
  · rw [convert_reading b c sb sc hb hc t, convert_reading a c sa sc ha hc t]
  · intro x' y' h
    obtain ⟨t', rfl⟩ := reading_surj sa x'
    rw [convert_reading a b sa sb ha hb t'] at h
    simp only [Res.ok.injEq] at h
    subst h
    obtain ⟨k, c, hk, hl⟩ := reading_affine sa
    obtain ⟨k', c', hk', hl'⟩ := reading_affine sb
    simp only [hl, hl', add_lt_add_iff_right]
    rw [mul_lt_mul_iff_right₀ hk, mul_lt_mul_iff_right₀ hk']

example : isTemperature c!"celsius" = true ∧ isTemperature c!"rankine" = true ∧ (c!"celsius", Scale.celsius) ∈ scaleNames := by
  decide

/-- The model converts 25 °C to 298.15 K and 77 °F. -/
theorem C14_example : convert 25 c!"degC" c!"K" = .ok (29815 / 100) ∧ convert 25 c!"degC" c!"degF" = .ok 77 := by
  decide +kernel

/-! ## C16: parsing -/

/-- **C16.** For all factors `F` and dimensions `D` satisfying the equations of the unit table, and all unit expressions over
known symbols, parsing the text of the expression succeeds and gives a unit whose factor is the value of the expression and
whose dimension is the dimension of the expression. -/
theorem C16_parse_unit (F : List Char → Rat) (hF : IsFactor F) (D : List Char → List Char → Int) (hD : IsDim D) (e : Expr)
    (hw : e.WF) (hk : ∀ s ∈ e.symbols, Known s) :
    ∃ du m, parseUnit e.text = .ok du ∧ factor du = .ok (e.value F) ∧ dimension du = .ok m ∧
      (∀ k, (find m k).getD 0 = e.dim D k) := by
  obtain ⟨m0, h1, h2, h3⟩ := dim_unitsOf D hD e hk 1 []
  refine ⟨unitsOf e 1, removeZero m0, parseUnit_text e hw, ?_, ?_, ?_⟩
  · rw [factor_unitsOf F hF e hk 1, zpow_one]
  · simp [dimension, h1]
  · intro k
    have := h2 k
    simp only [one_mul] at this
    rw [find_filter m0 (h3 (by simp))]
    simp only [get] at this
    simp only [find, Option.getD_none, zero_add] at this
    rw [← this]
    cases find m0 k with
    | none => rfl
    | some v => by_cases hv : v = 0 <;> simp [hv]

/-- Factors and dimensions satisfying the table equations exist (and `C16_parse_unit` shows that they are unique on known
symbols). -/
theorem C16_interpretations_exist : (∃ F, IsFactor F) ∧ (∃ D, IsDim D) := ⟨exists_factor, exists_dim⟩

example : (Expr.opParen (.sym c!"mol") false (.opSym (.sym c!"m2") true c!"s")).text = c!"mol/(m2*s)" := by decide

example : (Expr.opParen (.sym c!"mol") false (.opSym (.sym c!"m2") true c!"s")).WF := by
  intro s hs
  simp only [Expr.symbols, List.mem_append, List.mem_singleton] at hs
  rcases hs with rfl | rfl | rfl <;> exact ⟨by decide, by decide⟩

example : Known c!"mol" ∧ Known c!"m2" ∧ Known c!"s" :=
  ⟨Or.inr ⟨_, rfl⟩, Or.inr ⟨_, rfl⟩, Or.inr ⟨_, rfl⟩⟩

/-- **C16 is false of the code for malformed texts.** `mol(kg)`, without an operator, is read as the unit litre: the
character before the parenthesis is taken for the operator and everything else is dropped; the empty unit string and a
leading operator lead to undefined behaviour. -/
theorem C16_malformed : parseUnit c!"mol(kg)" = .ok [⟨1, c!"l", 1⟩] ∧ convertible c!"mol(kg)" c!"m3" = .ok true ∧
    parseUnit c!"" = .ub ∧ parseUnit c!"/s" = .ub := by
  decide +kernel

/-! ## C15: conversion -/

theorem convert_eq (x : Rat) (a b : List Char) (hab : a ≠ b) (ht : (isTemperature a && isTemperature b) = false) :
    convert x a b = (slope a b).bind fun q => .ok (x * q) := by
  simp only [convert, hab, if_false, intercept, ht, Bool.false_eq_true]
  cases slope a b <;> simp

/-- **C15 (conversion).** For all factors and dimensions satisfying the table equations and all unit expressions over known
symbols (not both temperature units, which C14 covers): if the dimensions agree, the value is multiplied by the quotient of
the factors; if they do not, an exception is thrown. -/
theorem C15_convert (F : List Char → Rat) (hF : IsFactor F) (D : List Char → List Char → Int) (hD : IsDim D) (a b : Expr)
    (ha : a.WF) (hb : b.WF) (hka : ∀ s ∈ a.symbols, Known s) (hkb : ∀ s ∈ b.symbols, Known s) (hab : a.text ≠ b.text)
    (ht : ¬ (isTemperature a.text = true ∧ isTemperature b.text = true)) (x : Rat) :
    ((∀ k, a.dim D k = b.dim D k) → convert x a.text b.text = .ok (x * (a.value F / b.value F))) ∧
    ((∃ k, a.dim D k ≠ b.dim D k) → convert x a.text b.text = .throw) := by
  have ht' : (isTemperature a.text && isTemperature b.text) = false := by
    rw [← Bool.not_eq_true, Bool.and_eq_true]; exact ht
  obtain ⟨ma, a1, a2, a3⟩ := dim_unitsOf D hD a hka 1 []
  obtain ⟨mb, b1, b2, b3⟩ := dim_unitsOf D hD b hkb 1 []
  have ga : ∀ k, get ma k = a.dim D k := fun k => by rw [a2]; simp [get, find]
  have gb : ∀ k, get mb k = b.dim D k := fun k => by rw [b2]; simp [get, find]
  have hm := mapEq_iff ma mb (a3 (by simp)) (b3 (by simp))
  simp only [ga, gb] at hm
  have hs : slope a.text b.text = if !mapEq (removeZero ma) (removeZero mb) then .throw else .ok (a.value F / b.value F) := by
    simp only [slope, ht', Bool.false_eq_true, if_false, parseUnit_text a ha, parseUnit_text b hb, Res.bind_ok', dimension, a1,
      b1, factor_unitsOf F hF a hka, factor_unitsOf F hF b hkb, zpow_one]
  rw [convert_eq x _ _ hab ht', hs]
  constructor
  · intro h; simp [hm.2 h]
  · rintro ⟨k, hk⟩
    have : mapEq (removeZero ma) (removeZero mb) = false := by
      rw [← Bool.not_eq_true, hm]
      exact fun h => hk (h k)
    simp [this]

/-- **C15 (identity).** Converting from a unit to itself returns the value. -/
theorem C15_identity (x : Rat) (a : List Char) : convert x a a = .ok x := by simp [convert]

/-- What a successful conversion means. -/
theorem slope_ok (a b : List Char) (q : Rat) (ht : (isTemperature a && isTemperature b) = false) (h : slope a b = .ok q) :
    ∃ pa pb da db fa fb, parseUnit a = .ok pa ∧ parseUnit b = .ok pb ∧ dimension pa = .ok da ∧ dimension pb = .ok db ∧
      mapEq da db = true ∧ factor pa = .ok fa ∧ factor pb = .ok fb ∧ q = fa / fb := by
  simp only [slope, ht, Bool.false_eq_true, if_false] at h
  cases h1 : parseUnit a <;> rw [h1] at h <;> simp only [Res.bind_ok', Res.bind_throw', Res.bind_ub', reduceCtorEq] at h
  cases h2 : parseUnit b <;> rw [h2] at h <;> simp only [Res.bind_ok', Res.bind_throw', Res.bind_ub', reduceCtorEq] at h
  rename_i pa pb
  cases h3 : dimension pa <;> rw [h3] at h <;> simp only [Res.bind_ok', Res.bind_throw', Res.bind_ub', reduceCtorEq] at h
  cases h4 : dimension pb <;> rw [h4] at h <;> simp only [Res.bind_ok', Res.bind_throw', Res.bind_ub', reduceCtorEq] at h
  rename_i da db
  cases h5 : mapEq da db <;> rw [h5] at h <;> simp only [Bool.not_false, Bool.not_true, if_true, Bool.false_eq_true, if_false,
    reduceCtorEq] at h
  cases h6 : factor pa <;> rw [h6] at h <;> simp only [Res.bind_ok', Res.bind_throw', Res.bind_ub', reduceCtorEq] at h
  cases h7 : factor pb <;> rw [h7] at h <;> simp only [Res.bind_ok', Res.bind_throw', Res.bind_ub', reduceCtorEq, Res.ok.injEq] at h
  exact ⟨pa, pb, da, db, _, _, rfl, rfl, h3, h4, h5, h6, h7, h.symm⟩

theorem slope_of (a b : List Char) (pa pb : DerivedUnit) (da db : DimMap) (fa fb : Rat)
    (ht : (isTemperature a && isTemperature b) = false) (h1 : parseUnit a = .ok pa) (h2 : parseUnit b = .ok pb)
    (h3 : dimension pa = .ok da) (h4 : dimension pb = .ok db) (h5 : mapEq da db = true) (h6 : factor pa = .ok fa)
    (h7 : factor pb = .ok fb) : slope a b = .ok (fa / fb) := by
  simp [slope, ht, h1, h2, h3, h4, h5, h6, h7]

theorem mapEq_symm (a b : DimMap) : mapEq a b = mapEq b a := by simp [mapEq, Bool.and_comm]

theorem dimension_ok (du : DerivedUnit) (d : DimMap) (h : dimension du = .ok d) :
    ∃ m, d = removeZero m ∧ (m.map Prod.fst).Nodup := by
  obtain ⟨D, hD⟩ := exists_dim
  simp only [dimension] at h
  cases hm : dimDerived du [] with
  | throw => rw [hm] at h; simp at h
  | ub => rw [hm] at h; simp at h
  | ok m =>
    rw [hm] at h
    simp only [Res.bind_ok', Res.ok.injEq] at h
    refine ⟨m, h.symm, ?_⟩
    have : ∀ (us : DerivedUnit) (m m' : DimMap), dimDerived us m = .ok m' → (m.map Prod.fst).Nodup → (m'.map Prod.fst).Nodup := by
      intro us
      induction us with
      | nil => intro m m' h hn; simp only [dimDerived, Res.ok.injEq] at h; rwa [← h]
      | cons u us ih =>
        intro m m' h hn
        simp only [dimDerived] at h
        cases hx : dimSymbol depth u.symbol u.power m with
        | throw => rw [hx] at h; simp at h
        | ub => rw [hx] at h; simp at h
        | ok m1 =>
          rw [hx] at h
          exact ih _ _ h ((dimSymbol_ok D hD _ _ _ _ _ hx).2 hn)
    exact this _ _ _ hm (by simp)

theorem mapEq_trans (p q r : DerivedUnit) (a b c : DimMap) (ha : dimension p = .ok a) (hb : dimension q = .ok b)
    (hc : dimension r = .ok c) (h1 : mapEq a b = true) (h2 : mapEq b c = true) : mapEq a c = true := by
  obtain ⟨m1, rfl, n1⟩ := dimension_ok p a ha
  obtain ⟨m2, rfl, n2⟩ := dimension_ok q b hb
  obtain ⟨m3, rfl, n3⟩ := dimension_ok r c hc
  rw [mapEq_iff _ _ n1 n2] at h1
  rw [mapEq_iff _ _ n2 n3] at h2
  rw [mapEq_iff _ _ n1 n3]
  intro k; rw [h1, h2]

theorem flatten_factor (nd : Node) : ∀ sign us, flatten nd sign = .ok us → ∀ u ∈ us, u.factor = 1 := by
  induction nd with
  | null => intro sign us h; simp [flatten] at h
  | node str l r ihl ihr =>
    intro sign us h
    simp only [flatten] at h
    split_ifs at h
    · cases h1 : flatten l sign <;> rw [h1] at h <;> simp only [Res.bind_ok', Res.bind_throw', Res.bind_ub', reduceCtorEq] at h
      cases h2 : flatten r sign <;> rw [h2] at h <;> simp only [Res.bind_ok', Res.bind_throw', Res.bind_ub', reduceCtorEq, Res.ok.injEq] at h
      subst h
      intro u hu
      rcases List.mem_append.1 hu with hu | hu
      · exact ihl _ _ h1 u hu
      · exact ihr _ _ h2 u hu
    · cases h1 : flatten l sign <;> rw [h1] at h <;> simp only [Res.bind_ok', Res.bind_throw', Res.bind_ub', reduceCtorEq] at h
      cases h2 : flatten r (-sign) <;> rw [h2] at h <;> simp only [Res.bind_ok', Res.bind_throw', Res.bind_ub', reduceCtorEq, Res.ok.injEq] at h
      subst h
      intro u hu
      rcases List.mem_append.1 hu with hu | hu
      · exact ihl _ _ h1 u hu
      · exact ihr _ _ h2 u hu
    · simp only [Res.ok.injEq] at h
      subst h
      simp

theorem factor_ne_zero (us : DerivedUnit) (h : ∀ u ∈ us, u.factor = 1) : ∀ q, factor us = .ok q → q ≠ 0 := by
  induction us with
  | nil => intro q hq; simp only [factor, Res.ok.injEq] at hq; rw [← hq]; exact one_ne_zero
  | cons u us ih =>
    intro q hq
    simp only [factor] at hq
    cases h1 : factorSymbol depth u.symbol <;> rw [h1] at hq <;>
      simp only [Res.bind_ok', Res.bind_throw', Res.bind_ub', reduceCtorEq] at hq
    cases h2 : factor us <;> rw [h2] at hq <;>
      simp only [Res.bind_ok', Res.bind_throw', Res.bind_ub', reduceCtorEq, Res.ok.injEq] at hq
    rename_i f g
    have hk : Known u.symbol := by
      by_contra hk
      rw [(unknown_throw u.symbol hk 1 []).2] at h1; simp at h1
    obtain ⟨f', hf', hf, -⟩ := known_factor u.symbol hk
    rw [h1] at hf
    simp only [Res.ok.injEq] at hf
    rw [← hq, h u (by simp), one_mul]
    exact mul_ne_zero (zpow_ne_zero _ (by rw [hf]; exact hf')) (ih (fun v hv => h v (List.mem_cons_of_mem _ hv)) g h2)

theorem parsed_factor_ne_zero (a : List Char) (p : DerivedUnit) (q : Rat) (h : parseUnit a = .ok p) (hq : factor p = .ok q) :
    q ≠ 0 := by
  refine factor_ne_zero p ?_ q hq
  simp only [parseUnit] at h
  cases h1 : parseNode (a.length + 1) true a.reverse <;> rw [h1] at h <;>
    simp only [Res.bind_ok', Res.bind_throw', Res.bind_ub', reduceCtorEq] at h
  exact flatten_factor _ _ _ h

/-- **C15 (round trip).** For all unit texts: if a conversion succeeds, the reverse conversion returns the original value. -/
theorem C15_round_trip (a b : List Char) (x y : Rat) (h : convert x a b = .ok y) : convert y b a = .ok x := by
  by_cases hab : a = b
  · subst hab
    rw [C15_identity] at h ⊢
    exact h.symm ▸ rfl
  · by_cases ht : (isTemperature a && isTemperature b) = true
    · rw [Bool.and_eq_true] at ht
      obtain ⟨y', h1, h2, -⟩ := C14_temperature_consistent a b b ht.1 ht.2 ht.2 x
      rw [h] at h1
      simp only [Res.ok.injEq] at h1
      rw [h1]; exact h2
    · have ht' : (isTemperature a && isTemperature b) = false := by simpa using ht
      have ht'' : (isTemperature b && isTemperature a) = false := by rw [Bool.and_comm]; exact ht'
      rw [convert_eq x a b hab ht'] at h
      cases hs : slope a b <;> rw [hs] at h <;> simp only [Res.bind_ok', Res.bind_throw', Res.bind_ub', reduceCtorEq, Res.ok.injEq] at h
      obtain ⟨pa, pb, da, db, fa, fb, h1, h2, h3, h4, h5, h6, h7, rfl⟩ := slope_ok a b _ ht' hs
      rw [convert_eq y b a (Ne.symm hab) ht'', slope_of b a pb pa db da fb fa ht'' h2 h1 h4 h3 (by rw [mapEq_symm]; exact h5) h7 h6]
      have na := parsed_factor_ne_zero a pa fa h1 h6
      have nb := parsed_factor_ne_zero b pb fb h2 h7
      simp only [Res.bind_ok', ← h]
      congr 1
      field_simp

/-- **C15 (composition).** For all unit texts, either all temperature units or none: converting from `a` to `b` and then
to `c` is converting from `a` to `c`. -/
theorem C15_compose (a b c : List Char) (x y z : Rat) (hab : isTemperature a = isTemperature b)
    (hbc : isTemperature b = isTemperature c) (h1 : convert x a b = .ok y) (h2 : convert y b c = .ok z) :
    convert x a c = .ok z := by
  by_cases eab : a = b
  · subst eab
    rw [C15_identity] at h1
    simp only [Res.ok.injEq] at h1
    rw [h1]; exact h2
  by_cases ebc : b = c
  · subst ebc
    rw [C15_identity] at h2
    simp only [Res.ok.injEq] at h2
    rw [← h2]; exact h1
  by_cases eac : a = c
  · subst eac
    have := C15_round_trip a b x y h1
    rw [this] at h2
    rw [C15_identity]; exact h2
  by_cases ht : isTemperature a = true
  · obtain ⟨y', e1, -, e3, -⟩ := C14_temperature_consistent a b c ht (hab ▸ ht) (hbc ▸ hab ▸ ht) x
    rw [h1] at e1
    simp only [Res.ok.injEq] at e1
    subst e1
    rw [← e3]; exact h2
  · have ha : isTemperature a = false := by simpa using ht
    have hb : isTemperature b = false := hab ▸ ha
    have t1 : (isTemperature a && isTemperature b) = false := by simp [ha]
    have t2 : (isTemperature b && isTemperature c) = false := by simp [hb]
    have t3 : (isTemperature a && isTemperature c) = false := by simp [ha]
    rw [convert_eq x a b eab t1] at h1
    rw [convert_eq y b c ebc t2] at h2
    cases hs1 : slope a b <;> rw [hs1] at h1 <;> simp only [Res.bind_ok', Res.bind_throw', Res.bind_ub', reduceCtorEq, Res.ok.injEq] at h1
    cases hs2 : slope b c <;> rw [hs2] at h2 <;> simp only [Res.bind_ok', Res.bind_throw', Res.bind_ub', reduceCtorEq, Res.ok.injEq] at h2
    obtain ⟨pa, pb, da, db, fa, fb, a1, a2, a3, a4, a5, a6, a7, rfl⟩ := slope_ok a b _ t1 hs1
    obtain ⟨pb', pc, db', dc, fb', fc, b1, b2, b3, b4, b5, b6, b7, rfl⟩ := slope_ok b c _ t2 hs2
    rw [a2] at b1; simp only [Res.ok.injEq] at b1; subst b1
    rw [a4] at b3; simp only [Res.ok.injEq] at b3; subst b3
    rw [a7] at b6; simp only [Res.ok.injEq] at b6; subst b6
    rw [convert_eq x a c eac t3, slope_of a c pa pc da dc fa fc t3 a1 b2 a3 b4 (mapEq_trans pa pb pc _ _ _ a3 a4 b4 a5 b5) a6 b7]
    have nb := parsed_factor_ne_zero b pb fb a2 a7
    simp only [Res.bind_ok', ← h2, ← h1]
    congr 1
    field_simp

example : convert 1 c!"J/mol" c!"cal/mmol" = .ok (1 / 4184) ∧ convert (1 / 4184) c!"cal/mmol" c!"kcal/mol" = .ok (1 / 4184) ∧
    isTemperature c!"J/mol" = isTemperature c!"cal/mmol" := by decide +kernel

/-- **C15 (`convertible`).** For all different unit texts, `convertible` returns true exactly when conversions succeed. -/
theorem C15_convertible_iff (a b : List Char) (hab : a ≠ b) (x : Rat) :
    convertible a b = .ok true ↔ ∃ y, convert x a b = .ok y := by
  by_cases ht : (isTemperature a && isTemperature b) = true
  · constructor
    · intro _
      rw [Bool.and_eq_true] at ht
      obtain ⟨y, h, -⟩ := C14_temperature_consistent a b b ht.1 ht.2 ht.2 x
      exact ⟨y, h⟩
    · intro _; simp [convertible, ht]
  · have ht' : (isTemperature a && isTemperature b) = false := by simpa using ht
    rw [convert_eq x a b hab ht']
    constructor
    · intro h
      simp only [convertible, ht', Bool.false_eq_true, if_false] at h
      cases h1 : parseUnit a <;> rw [h1] at h <;> simp only [Res.bind_ok', Res.bind_throw', Res.bind_ub', reduceCtorEq] at h
      cases h2 : parseUnit b <;> rw [h2] at h <;> simp only [Res.bind_ok', Res.bind_throw', Res.bind_ub', reduceCtorEq] at h
      rename_i pa pb
      cases h3 : dimension pa <;> rw [h3] at h <;> simp only [Res.bind_ok', Res.bind_throw', Res.bind_ub', reduceCtorEq] at h
      cases h4 : dimension pb <;> rw [h4] at h <;> simp only [Res.bind_ok', Res.bind_throw', Res.bind_ub', reduceCtorEq, Res.ok.injEq] at h
      rename_i da db
      have hfac : ∀ (us : DerivedUnit) (m m' : DimMap), dimDerived us m = .ok m' → ∃ q, factor us = .ok q := by
        intro us
        induction us with
        | nil => intro m m' _; exact ⟨1, rfl⟩
        | cons u us ih =>
          intro m m' hd
          simp only [dimDerived] at hd
          cases hx : dimSymbol depth u.symbol u.power m with
          | throw => rw [hx] at hd; simp at hd
          | ub => rw [hx] at hd; simp at hd
          | ok m1 =>
            rw [hx] at hd
            have hk : Known u.symbol := by
              by_contra hk
              rw [(unknown_throw u.symbol hk _ _).1] at hx; simp at hx
            obtain ⟨f, -, hf, -⟩ := known_factor u.symbol hk
            obtain ⟨g, hg⟩ := ih _ _ hd
            exact ⟨_, by simp [factor, hf, hg]; rfl⟩
      have hfac' : ∀ us d, dimension us = .ok d → ∃ q, factor us = .ok q := by
        intro us d hd
        simp only [dimension] at hd
        cases hx : dimDerived us [] with
        | throw => rw [hx] at hd; simp at hd
        | ub => rw [hx] at hd; simp at hd
        | ok m => exact hfac us [] m hx
      obtain ⟨fa, hfa⟩ := hfac' pa da h3
      obtain ⟨fb, hfb⟩ := hfac' pb db h4
      rw [slope_of a b pa pb da db fa fb ht' h1 h2 h3 h4 h hfa hfb]
      exact ⟨_, rfl⟩
    · rintro ⟨y, h⟩
      cases hs : slope a b <;> rw [hs] at h <;> simp only [Res.bind_ok', Res.bind_throw', Res.bind_ub', reduceCtorEq] at h
      obtain ⟨pa, pb, da, db, fa, fb, h1, h2, h3, h4, h5, -⟩ := slope_ok a b _ ht' hs
      simp [convertible, ht', h1, h2, h3, h4, h5]

/-- **C15 is false of the code (temperature inside compound units).** The names of one temperature scale count as different
dimensions, so heat capacities per degree cannot be converted, and a bracketed temperature unit breaks composition. -/
theorem C15_compound_temperature_rejected :
    convert 1 c!"J/kelvin" c!"J/K" = .throw ∧ convert 1 c!"J/degC" c!"J/K" = .throw ∧
    convert 1 c!"K" c!"degC" = .ok (-27215 / 100) ∧ convert (-27215 / 100) c!"degC" c!"(degC)" = .ok (-27215 / 100) ∧
    convert 1 c!"K" c!"(degC)" = .throw := by decide +kernel

/-- **C15 is false of the code (table).** The tesla is entered as weber times square metre, so it cannot be converted to
weber per square metre; the dimensionless `1` counts as a dimension, so `1/s` cannot be converted to hertz. -/
theorem C15_wrong_dimensions :
    convert 1 c!"T" c!"Wb/m2" = .throw ∧ convert 1 c!"T" c!"Wb*m2" = .ok 1 ∧ convert 1 c!"1/s" c!"Hz" = .throw := by
  decide +kernel

/-- An unknown unit is not rejected when both texts are equal. -/
theorem C15_unknown_unit_accepted (x : Rat) :
    convert x c!"nosuchunit" c!"nosuchunit" = .ok x ∧ convertible c!"nosuchunit" c!"nosuchunit" = .throw := by
  constructor
  · exact C15_identity _ _
  · decide +kernel

end Verif.Units
