import Verif.Spec.MineralMechanism
import Verif.Theorems.Strings
import Verif.Theorems.Units

/-!
# C85: mineral mechanisms and catalysts read from texts

Every text made of well formed options separated by semicolons gives the mechanism it describes. The
texts of the documentation, whose options are separated by commas, are rejected; incomplete options read
outside of vectors; equality of mechanisms and catalysts ignores all members but one.
-/

namespace Verif.Mineral

open Verif.Strings

theorem hasInfix_iff (s t : Str) : hasInfix s t = true ↔ s <:+: t := by
  induction t with
  | nil => simp [hasInfix]
  | cons c t ih =>
    rw [hasInfix, Bool.or_eq_true, ih, List.isPrefixOf_iff_prefix, List.infix_cons_iff]

theorem fields_infix {d o : Str} {ws : List Str} (h : Fields d o ws) : ∀ w ∈ ws, w <:+: o := by
  induction h with
  | none => simp
  | word sep w rest ws _ _ _ _ _ ih =>
    intro x hx
    rcases List.mem_cons.1 hx with rfl | hx
    · exact ⟨sep, rest, rfl⟩
    · exact (ih x hx).trans ⟨sep ++ w, [], by simp⟩

theorem not_catalyst {o : Str} (hb : '[' ∉ o) : isCatalystOption o = false := by
  have h : ∀ s : Str, '[' ∈ s → hasInfix s o = false := by
    intro s hs
    by_contra hc
    exact hb (((hasInfix_iff s o).1 (by simpa using hc)).subset hs)
  rw [isCatalystOption, h _ (by simp), h _ (by simp), h _ (by simp), h _ (by simp)]
  rfl

theorem is_catalyst {o qty rest : Str} (hq : qty ∈ quantityNames) (h : qty ++ '[' :: rest <:+: o) :
    isCatalystOption o = true := by
  have h1 : hasInfix (qty ++ c!"[") o = true := by
    rw [hasInfix_iff]
    refine List.IsInfix.trans ⟨[], rest, ?_⟩ h
    simp
  simp only [quantityNames, List.mem_cons, List.not_mem_nil, or_false] at hq
  rw [isCatalystOption]
  rcases hq with rfl | rfl | rfl | rfl
  · have : hasInfix c!"a[" o = true := h1
    simp [this]
  · have : hasInfix c!"activity[" o = true := h1
    simp [this]
  · have : hasInfix c!"p[" o = true := h1
    simp [this]
  · have : hasInfix c!"pressure[" o = true := h1
    simp [this]

/-- Reading a unit that can be converted. -/
theorem convertR_of {u dst : Str} {k : ℚ} (hd : Units.isTemperature dst = false)
    (hself : Units.convertible dst dst = .ok true) (h : Units.convert 1 u dst = .ok k) (x : ℝ) :
    checkUnit u dst = .ok () ∧ convertR x u dst = .ok (x * (k : ℝ)) := by
  by_cases he : u = dst
  · subst he
    rw [Units.C15_identity] at h
    injection h with h
    subst h
    simp [checkUnit, hself, convertR]
  · have hc := (Units.C15_convertible_iff u dst he 1).2 ⟨k, h⟩
    have ht : (Units.isTemperature u && Units.isTemperature dst) = false := by simp [hd]
    rw [Units.convert, if_neg he] at h
    refine ⟨by simp [checkUnit, hc], ?_⟩
    rw [convertR, if_neg he]
    cases hs : Units.slope u dst with
    | throw => rw [hs] at h; simp at h
    | ub => rw [hs] at h; simp at h
    | ok a =>
      rw [hs] at h
      simp only [Res.bind_ok', Units.intercept, ht, Bool.false_eq_true, if_false] at h ⊢
      injection h with h
      rw [← h]
      simp

theorem catalyst_words {qty sp : Str} (hq : qty ∈ quantityNames) (hs : sp ≠ [])
    (hb : '[' ∉ sp ∧ ']' ∉ sp) : split (qty ++ c!"[" ++ sp ++ c!"]") c!"[]" = [qty, sp] := by
  rw [C08_split_fields]
  have hq1 : qty ≠ [] ∧ ∀ c ∈ qty, c ∉ c!"[]" := by
    revert qty
    decide
  have h1 : Fields c!"[]" c!"]" [] := .none _ (by simp)
  have h2 : Fields c!"[]" (c!"[" ++ sp ++ c!"]") [sp] :=
    .word c!"[" sp c!"]" [] (by simp) hs
      (fun c hc hm => by
        simp only [List.mem_cons, List.not_mem_nil, or_false] at hm
        rcases hm with rfl | rfl
        · exact hb.1 hc
        · exact hb.2 hc)
      (by simp) h1
  have := Fields.word (d := c!"[]") [] qty (c!"[" ++ sp ++ c!"]") [sp] (by simp) hq1.1 hq1.2 (by simp) h2
  simpa using this

theorem checkQuantity_ok {qty : Str} (hq : qty ∈ quantityNames) : checkQuantity qty = .ok () := by
  rw [checkQuantity, if_neg]
  simp only [quantityNames, List.mem_cons, List.not_mem_nil, or_false] at hq
  tauto

/-- **C85.** The text of a catalyst is read: quantity, species and power. -/
theorem C85_catalyst (o v qty sp : Str) (hq : qty ∈ quantityNames) (hs : sp ≠ [])
    (hb : '[' ∉ sp ∧ ']' ∉ sp) (hw : Fields c!"= " o [qty ++ c!"[" ++ sp ++ c!"]", v]) :
    Catalyst.ofText o = .ok ⟨sp, qty, Numbers.atof v⟩ ∧
    Catalyst.ofText o = Catalyst.make sp qty (Numbers.atof v) := by
  have h1 : Catalyst.ofText o = .ok ⟨sp, qty, Numbers.atof v⟩ := by
    rw [Catalyst.ofText, (C08_split_fields _ _ _).2 hw]
    simp only [List.length_cons, List.length_nil, ne_eq, not_true_eq_false, if_false]
    rw [show at! [qty ++ c!"[" ++ sp ++ c!"]", v] 1 = .ok v from rfl,
      show at! [qty ++ c!"[" ++ sp ++ c!"]", v] 0 = .ok (qty ++ c!"[" ++ sp ++ c!"]") from rfl]
    simp only [Res.bind_ok', catalyst_words hq hs hb]
    rw [show at! [qty, sp] 1 = .ok sp from rfl, show at! [qty, sp] 0 = .ok qty from rfl]
    simp only [Res.bind_ok', checkQuantity_ok hq]
  exact ⟨h1, by rw [h1, Catalyst.make, checkQuantity_ok hq]; rfl⟩

theorem addOption_says {m : Mechanism} {o : Str} {s : Setting} (h : Says o s) :
    m.addOption o = .ok (s.apply m) := by
  have hr : Units.isTemperature rateUnit = false := by decide +kernel
  have he : Units.isTemperature energyUnit = false := by decide +kernel
  have hrs : Units.convertible rateUnit rateUnit = .ok true := by decide +kernel
  have hes : Units.convertible energyUnit energyUnit = .ok true := by decide +kernel
  cases h with
  | rate v u k hw hb hu =>
    obtain ⟨h1, h2⟩ := convertR_of hr hrs hu ((10 : ℝ) ^ ((Numbers.atof v : ℚ) : ℝ))
    rw [Mechanism.addOption, if_neg (by rw [not_catalyst hb]; simp), (C08_split_fields _ _ _).2 hw]
    simp [at!, Mechanism.setRateConstant, h1, h2, Setting.apply]
  | energy v u k hw hb hu =>
    obtain ⟨h1, h2⟩ := convertR_of he hes hu ((Numbers.atof v : ℚ) : ℝ)
    rw [Mechanism.addOption, if_neg (by rw [not_catalyst hb]; simp), (C08_split_fields _ _ _).2 hw]
    simp [at!, Mechanism.setActivationEnergy, h1, h2, Setting.apply]
  | powerP v hw hb =>
    rw [Mechanism.addOption, if_neg (by rw [not_catalyst hb]; simp), (C08_split_fields _ _ _).2 hw]
    simp [at!, Setting.apply]
  | powerQ v hw hb =>
    rw [Mechanism.addOption, if_neg (by rw [not_catalyst hb]; simp), (C08_split_fields _ _ _).2 hw]
    simp [at!, Setting.apply]
  | catalyst v qty sp hq hs hb hw =>
    have hin : qty ++ '[' :: (sp ++ c!"]") <:+: o := by
      have := fields_infix hw (qty ++ c!"[" ++ sp ++ c!"]") (by simp)
      simpa using this
    rw [Mechanism.addOption, if_pos (is_catalyst hq hin), (C85_catalyst o v qty sp hq hs hb hw).1]
    rfl

/-- **C85.** A text whose options, separated by semicolons, say certain things gives the mechanism in
which these things were said one after the other. -/
theorem C85_mechanism (text : Str) (options : List Str) (settings : List Setting)
    (ht : Fields c!";" text options) (hs : List.Forall₂ Says options settings) :
    Mechanism.ofText text = .ok (settings.foldl Setting.apply blank) := by
  rw [Mechanism.ofText, (C08_split_fields _ _ _).2 ht]
  clear ht
  have key : ∀ m : Mechanism, addOptions m options = .ok (settings.foldl Setting.apply m) := by
    induction hs with
    | nil => intro m; rfl
    | cons h _ ih =>
      intro m
      rw [addOptions, addOption_says h, Res.bind_ok', ih]
      rfl
  exact key _

/-- **C85 fails** for the two texts of the documentation of the constructor: its options are separated by
commas, and both are rejected. -/
theorem C85_documented_wrong :
    Mechanism.ofText c!"logk = -5.81 mol/(m2*s), Ea = 23.5 kJ/mol" = .throw ∧
    Mechanism.ofText c!"logk = -0.30 mol/(m2*s), Ea = 14.4 kJ/mol, a[H+] = 1.0" = .throw := by
  have h1 : split c!"logk = -5.81 mol/(m2*s), Ea = 23.5 kJ/mol" c!";"
      = [c!"logk = -5.81 mol/(m2*s), Ea = 23.5 kJ/mol"] := by decide +kernel
  have h2 : split c!"logk = -0.30 mol/(m2*s), Ea = 14.4 kJ/mol, a[H+] = 1.0" c!";"
      = [c!"logk = -0.30 mol/(m2*s), Ea = 14.4 kJ/mol, a[H+] = 1.0"] := by decide +kernel
  have h3 : isCatalystOption c!"logk = -5.81 mol/(m2*s), Ea = 23.5 kJ/mol" = false := by decide +kernel
  have h4 : isCatalystOption c!"logk = -0.30 mol/(m2*s), Ea = 14.4 kJ/mol, a[H+] = 1.0" = true := by
    decide +kernel
  have h5 : (split c!"logk = -5.81 mol/(m2*s), Ea = 23.5 kJ/mol" c!"= ").length = 6 := by decide +kernel
  have h6 : Catalyst.ofText c!"logk = -0.30 mol/(m2*s), Ea = 14.4 kJ/mol, a[H+] = 1.0" = .throw := by
    decide +kernel
  constructor
  · rw [Mechanism.ofText, h1, addOptions, Mechanism.addOption, h3, if_neg (by simp)]
    simp [h5]
  · rw [Mechanism.ofText, h2, addOptions, Mechanism.addOption, h4, if_pos rfl, h6]
    rfl

/-- **C85 fails** for options without a value and catalysts without a species: the code reads outside of
the vector of words. -/
theorem C85_incomplete_wrong :
    (∀ m : Mechanism, m.addOption c!"logk" = .ub) ∧ Catalyst.ofText c!"a[]=1" = .ub := by
  refine ⟨fun m => ?_, by decide +kernel⟩
  have h3 : isCatalystOption c!"logk" = false := by decide +kernel
  have h5 : split c!"logk" c!"= " = [c!"logk"] := by decide +kernel
  rw [Mechanism.addOption, h3, if_neg (by simp), h5]
  rfl

/-- **C85 fails** for wrong values and units of `p` and `q`: they are accepted. A value that is not a
number is taken for zero, and the unit is ignored. -/
theorem C85_garbage_wrong (m : Mechanism) :
    m.addOption c!"p=one" = .ok { m with p := 0 } ∧
    m.addOption c!"q=2 furlong" = .ok { m with q := 2 } := by
  have h3 : isCatalystOption c!"p=one" = false := by decide +kernel
  have h4 : isCatalystOption c!"q=2 furlong" = false := by decide +kernel
  have h5 : split c!"p=one" c!"= " = [c!"p", c!"one"] := by decide +kernel
  have h6 : split c!"q=2 furlong" c!"= " = [c!"q", c!"2", c!"furlong"] := by decide +kernel
  have h7 : Numbers.atof c!"one" = 0 := by decide +kernel
  have h8 : Numbers.atof c!"2" = 2 := by decide +kernel
  constructor
  · rw [Mechanism.addOption, h3, if_neg (by simp), h5]
    simp [at!, h7]
  · rw [Mechanism.addOption, h4, if_neg (by simp), h6]
    simp [at!, h8]

/-- **C85 fails** for `setCatalysts` with more than one catalyst: whatever the mechanism had before is
lost and an exception is raised, while the same text is accepted by the constructor. -/
theorem C85_setCatalysts_wrong (m : Mechanism) :
    m.setCatalysts c!"a[H+]=1.0;p[CO2(g)]=0.5" = ({ m with catalysts := [] }, .throw) ∧
    ∃ c1 c2, Mechanism.ofText c!"a[H+]=1.0;p[CO2(g)]=0.5" = .ok { blank with catalysts := [c1, c2] } := by
  have h1 : Catalyst.ofText c!"a[H+]=1.0;p[CO2(g)]=0.5" = .throw := by decide +kernel
  refine ⟨by rw [Mechanism.setCatalysts, h1], ⟨c!"H+", c!"a", Numbers.atof c!"1.0"⟩,
    ⟨c!"CO2(g)", c!"p", Numbers.atof c!"0.5"⟩, ?_⟩
  have h2 := C85_mechanism c!"a[H+]=1.0;p[CO2(g)]=0.5" [c!"a[H+]=1.0", c!"p[CO2(g)]=0.5"]
    [.catalyst ⟨c!"H+", c!"a", Numbers.atof c!"1.0"⟩, .catalyst ⟨c!"CO2(g)", c!"p", Numbers.atof c!"0.5"⟩]
    ((C08_split_fields _ _ _).1 (by decide +kernel))
    (.cons (.catalyst _ _ c!"a" c!"H+" (by decide) (by decide) (by decide)
      ((C08_split_fields _ _ _).1 (by decide +kernel)))
    (.cons (.catalyst _ _ c!"p" c!"CO2(g)" (by decide) (by decide) (by decide)
      ((C08_split_fields _ _ _).1 (by decide +kernel))) .nil))
  rw [h2]
  rfl

/-- **C85 fails** for equality: mechanisms with the same rate constant are equal whatever the rest, and so
are catalysts of the same species. -/
theorem C85_equality_wrong (k e1 e2 : ℝ) (s q1 q2 : Str) (w1 w2 : ℚ) :
    (⟨k, e1, w1, w1, []⟩ : Mechanism).Eq ⟨k, e2, w2, w2, [⟨s, q1, w1⟩]⟩ ∧
    (⟨s, q1, w1⟩ : Catalyst).eq ⟨s, q2, w2⟩ = true := by
  simp [Mechanism.Eq, Catalyst.eq]

/-- A text with three options, in units other than those kept. -/
example : Mechanism.ofText c!"logk = -0.5 mmol/(m2*s); Ea = 14400 J/mol; a[H+] = 1.0"
    = .ok ⟨(10 : ℝ) ^ (((-1 / 2 : ℚ)) : ℝ) * ((1 / 1000 : ℚ) : ℝ), ((14400 : ℚ) : ℝ) * ((1 / 1000 : ℚ) : ℝ), 1, 1,
      [⟨c!"H+", c!"a", 1⟩]⟩ := by
  have h := C85_mechanism c!"logk = -0.5 mmol/(m2*s); Ea = 14400 J/mol; a[H+] = 1.0"
    [c!"logk = -0.5 mmol/(m2*s)", c!" Ea = 14400 J/mol", c!" a[H+] = 1.0"]
    [.rate (Numbers.atof c!"-0.5") (1 / 1000), .energy (Numbers.atof c!"14400") (1 / 1000),
      .catalyst ⟨c!"H+", c!"a", Numbers.atof c!"1.0"⟩]
    ((C08_split_fields _ _ _).1 (by decide +kernel))
    (.cons (.rate _ _ c!"mmol/(m2*s)" _ ((C08_split_fields _ _ _).1 (by decide +kernel)) (by decide)
      (by decide +kernel))
    (.cons (.energy _ _ c!"J/mol" _ ((C08_split_fields _ _ _).1 (by decide +kernel)) (by decide)
      (by decide +kernel))
    (.cons (.catalyst _ _ c!"a" c!"H+" (by decide) (by decide) (by decide)
      ((C08_split_fields _ _ _).1 (by decide +kernel))) .nil)))
  rw [h]
  have h1 : Numbers.atof c!"-0.5" = -1 / 2 := by decide +kernel
  have h2 : Numbers.atof c!"14400" = 14400 := by decide +kernel
  have h3 : Numbers.atof c!"1.0" = 1 := by decide +kernel
  rw [h1, h2, h3]
  rfl

end Verif.Mineral
