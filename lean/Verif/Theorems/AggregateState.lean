import Verif.Spec.AggregateState
import Verif.Spec.Strings
import Verif.Lemmas.ChargeParser
import Verif.Lemmas.Strings

/-!
# Theorem C13: aggregate states survive printing and parsing; suffixes decide the state
-/

namespace Verif.AggregateState

/-- **C13 (print and parse).** Parsing the printed form of any state returns the state, and so does its short notation. -/
theorem C13_parse_print (s : State) : parse (print s) = s ∧ ∀ w, Denotes w s → parse w = s := by
  constructor
  · cases s <;> decide +kernel
  · rintro w ⟨e, he, rfl, rfl⟩
    have : ∀ e ∈ codeTable, parse e.1.toList = e.2 := by decide +kernel
    exact this e he

/-- A word that is neither a short nor a long notation is `Undefined`. -/
theorem C13_parse_other (w : List Char) (h1 : ∀ s, ¬ Denotes w s) (h2 : ∀ s, w ≠ print s) : parse w = .Undefined := by
  unfold parse
  have a_g : ¬ (w = "g".toList ∨ w = "Gas".toList) := by
    rintro (h | h)
    · exact h1 .Gas ⟨("g", .Gas), by decide, h, rfl⟩
    · exact h2 .Gas h
  rw [if_neg a_g]
  have a_l : ¬ (w = "l".toList ∨ w = "Liquid".toList) := by
    rintro (h | h)
    · exact h1 .Liquid ⟨("l", .Liquid), by decide, h, rfl⟩
    · exact h2 .Liquid h
  rw [if_neg a_l]
  have a_s : ¬ (w = "s".toList ∨ w = "Solid".toList) := by
    rintro (h | h)
    · exact h1 .Solid ⟨("s", .Solid), by decide, h, rfl⟩
    · exact h2 .Solid h
  rw [if_neg a_s]
  have a_pl : ¬ (w = "pl".toList ∨ w = "Plasma".toList) := by
    rintro (h | h)
    · exact h1 .Plasma ⟨("pl", .Plasma), by decide, h, rfl⟩
    · exact h2 .Plasma h
  rw [if_neg a_pl]
  have a_cd : ¬ (w = "cd".toList ∨ w = "CondensedPhase".toList) := by
    rintro (h | h)
    · exact h1 .CondensedPhase ⟨("cd", .CondensedPhase), by decide, h, rfl⟩
    · exact h2 .CondensedPhase h
  rw [if_neg a_cd]
  have a_fl : ¬ (w = "fl".toList ∨ w = "Fluid".toList) := by
    rintro (h | h)
    · exact h1 .Fluid ⟨("fl", .Fluid), by decide, h, rfl⟩
    · exact h2 .Fluid h
  rw [if_neg a_fl]
  have a_lc : ¬ (w = "lc".toList ∨ w = "LiquidCrystal".toList) := by
    rintro (h | h)
    · exact h1 .LiquidCrystal ⟨("lc", .LiquidCrystal), by decide, h, rfl⟩
    · exact h2 .LiquidCrystal h
  rw [if_neg a_lc]
  have a_cr : ¬ (w = "cr".toList ∨ w = "CrystallineSolid".toList) := by
    rintro (h | h)
    · exact h1 .CrystallineSolid ⟨("cr", .CrystallineSolid), by decide, h, rfl⟩
    · exact h2 .CrystallineSolid h
  rw [if_neg a_cr]
  have a_am : ¬ (w = "am".toList ∨ w = "AmorphousSolid".toList) := by
    rintro (h | h)
    · exact h1 .AmorphousSolid ⟨("am", .AmorphousSolid), by decide, h, rfl⟩
    · exact h2 .AmorphousSolid h
  rw [if_neg a_am]
  have a_vit : ¬ (w = "vit".toList ∨ w = "Vitreous".toList) := by
    rintro (h | h)
    · exact h1 .Vitreous ⟨("vit", .Vitreous), by decide, h, rfl⟩
    · exact h2 .Vitreous h
  rw [if_neg a_vit]
  have a_ads : ¬ (w = "ads".toList ∨ w = "Adsorbed".toList) := by
    rintro (h | h)
    · exact h1 .Adsorbed ⟨("ads", .Adsorbed), by decide, h, rfl⟩
    · exact h2 .Adsorbed h
  rw [if_neg a_ads]
  have a_mon : ¬ (w = "mon".toList ∨ w = "Monomeric".toList) := by
    rintro (h | h)
    · exact h1 .Monomeric ⟨("mon", .Monomeric), by decide, h, rfl⟩
    · exact h2 .Monomeric h
  rw [if_neg a_mon]
  have a_pol : ¬ (w = "pol".toList ∨ w = "Polymeric".toList) := by
    rintro (h | h)
    · exact h1 .Polymeric ⟨("pol", .Polymeric), by decide, h, rfl⟩
    · exact h2 .Polymeric h
  rw [if_neg a_pol]
  have a_ss : ¬ (w = "ss".toList ∨ w = "SolidSolution".toList) := by
    rintro (h | h)
    · exact h1 .SolidSolution ⟨("ss", .SolidSolution), by decide, h, rfl⟩
    · exact h2 .SolidSolution h
  rw [if_neg a_ss]
  have a_ex : ¬ (w = "ex".toList ∨ w = "IonExchange".toList) := by
    rintro (h | h)
    · exact h1 .IonExchange ⟨("ex", .IonExchange), by decide, h, rfl⟩
    · exact h2 .IonExchange h
  rw [if_neg a_ex]
  have a_aq : ¬ (w = "aq".toList ∨ w = "Aqueous".toList) := by
    rintro (h | h)
    · exact h1 .Aqueous ⟨("aq", .Aqueous), by decide, h, rfl⟩
    · exact h2 .Aqueous h
  rw [if_neg a_aq]

example : (∀ s, ¬ Denotes "xyz".toList s) ∧ ∀ s, "xyz".toList ≠ print s := by
  refine ⟨?_, fun s => by cases s <;> decide⟩
  rintro s ⟨e, he, h, -⟩
  have : ∀ e ∈ codeTable, "xyz".toList ≠ e.1.toList := by decide
  exact this e he h

theorem split_paren (base t : List Char) (ht : SuffixText t) :
    ChargeParser.splitSpeciesNameSuffix (base ++ '(' :: t ++ [')']) = .ok (base, t) := by
  have hlast : (base ++ '(' :: t ++ [')']).getLast? = some ')' := by rw [List.getLast?_append]; rfl
  have hr : ChargeParser.rfind '(' (base ++ '(' :: t ++ [')']) = some (base, t ++ [')']) := by
    have := ChargeParser.rfind_append '(' base (t ++ [')']) (by
      simp only [List.mem_append, List.mem_singleton, not_or]
      exact ⟨fun h => (ht _ h).1 rfl, by decide⟩)
    simpa using this
  have hu : t.any Char.isUpper = false := by
    rw [List.any_eq_false]
    intro c hc; rw [(ht c hc).2]; simp
  unfold ChargeParser.splitSpeciesNameSuffix
  rw [hlast]
  simp only [ne_eq, not_true_eq_false, if_false, hr, List.dropLast_concat, hu, Bool.false_eq_true]

/-- **C13 (suffix).** For every name `base(t)`: if the words of the suffix `t` include the notation of state `s` and of no
other state, then `s` is identified, whatever `base` is. -/
theorem C13_identify_suffix (base t : List Char) (ht : SuffixText t) (ws : List (List Char)) (s : State)
    (hws : Strings.Fields [' ', ','] t ws) (hs : ∃ w ∈ ws, Denotes w s) (hu : ∀ w ∈ ws, ∀ s', Denotes w s' → s' = s) :
    identify (base ++ '(' :: t ++ [')']) = .ok s := by
  obtain ⟨w, hw, hd⟩ := hs
  have hsp := Strings.fields_unique _ _ _ hws
  unfold identify
  rw [split_paren base t ht]
  simp only [Res.bind_ok', hsp]
  have hno : ∀ e ∈ codeTable, e.2 ≠ s → ws.contains e.1.toList = false := by
    intro e he hne
    rw [← Bool.not_eq_true, List.contains_iff_mem]
    exact fun hm => hne (hu _ hm _ ⟨e, he, rfl, rfl⟩)
  have hyes : ∀ e ∈ codeTable, e.2 = s → ws.contains e.1.toList = true := by
    obtain ⟨e', he', rfl, rfl⟩ := hd
    intro e he h
    rw [List.contains_iff_mem]
    have inj : ∀ e ∈ codeTable, ∀ e' ∈ codeTable, e.2 = e'.2 → e.1.toList = e'.1.toList := by decide
    rw [inj e he e' he' h]; exact hw
  simp only [codeTable, List.mem_cons, List.not_mem_nil, or_false, forall_eq_or_imp, forall_eq] at hno hyes
  have hU : s ≠ .Undefined := by
    rintro rfl
    obtain ⟨e, he, -, h⟩ := hd
    have : ∀ e ∈ codeTable, State.Undefined ≠ e.2 := by decide
    exact this e he h
  cases s <;> simp_all

example : SuffixText "s, calcite".toList ∧ Strings.Fields [' ', ','] "s, calcite".toList ["s".toList, "calcite".toList] ∧
    (∃ w ∈ ["s".toList, "calcite".toList], Denotes w .Solid) ∧
    (∀ w ∈ ["s".toList, "calcite".toList], ∀ s', Denotes w s' → s' = .Solid) := by
  refine ⟨by unfold SuffixText; decide, ?_, ⟨"s".toList, by decide, ("s", .Solid), by decide, by decide, rfl⟩, ?_⟩
  · exact Strings.Fields.word [] "s".toList ", calcite".toList _ (by decide) (by decide) (by decide) (by decide)
      (Strings.Fields.word ", ".toList "calcite".toList [] _ (by decide) (by decide) (by decide) (by decide)
        (Strings.Fields.none [] (by decide)))
  · rintro w hw s' ⟨e, he, rfl, rfl⟩
    revert hw; revert he; revert e
    decide

/-- **C13 (no code in the suffix).** For every name `base(t)` whose suffix has no state notation, the state is `Aqueous` if
the charge read from `base` is not zero and `Undefined` if it is zero. -/
theorem C13_identify_unknown_suffix (base t : List Char) (ht : SuffixText t) (ws : List (List Char)) (z : Rat)
    (hws : Strings.Fields [' ', ','] t ws) (hu : ∀ w ∈ ws, ∀ s', ¬ Denotes w s')
    (hz : ChargeParser.parseElectricCharge base = .ok z) :
    identify (base ++ '(' :: t ++ [')']) = .ok (if z = 0 then .Undefined else .Aqueous) := by
  have hsp := Strings.fields_unique _ _ _ hws
  unfold identify
  rw [split_paren base t ht]
  have hno : ∀ e ∈ codeTable, ws.contains e.1.toList = false := by
    intro e he
    rw [← Bool.not_eq_true, List.contains_iff_mem]
    exact fun hm => hu _ hm _ ⟨e, he, rfl, rfl⟩
  simp only [codeTable, List.mem_cons, List.not_mem_nil, or_false, forall_eq_or_imp, forall_eq] at hno
  simp only [Res.bind_ok', hsp, hno, Bool.false_eq_true, if_false, hz]
  by_cases h : z = 0 <;> simp [h]

/-- **C13 (no suffix).** A name not ending with `)` is `Aqueous` if its charge is not zero and `Undefined` otherwise. -/
theorem C13_identify_no_suffix (name : List Char) (h0 : name ≠ []) (hl : name.getLast? ≠ some ')') (z : Rat)
    (hz : ChargeParser.parseElectricCharge name = .ok z) :
    identify name = .ok (if z = 0 then .Undefined else .Aqueous) := by
  have hsp : ChargeParser.splitSpeciesNameSuffix name = .ok (name, []) := by
    unfold ChargeParser.splitSpeciesNameSuffix
    cases hc : name.getLast? with
    | none => exact absurd (List.getLast?_eq_none_iff.1 hc) h0
    | some c =>
      rw [hc] at hl
      simp only
      rw [if_pos (by simpa using hl)]
  unfold identify
  rw [hsp]
  simp only [Res.bind_ok', Strings.split_nil, List.contains_nil, Bool.false_eq_true, if_false, hz]
  by_cases h : z = 0 <;> simp [h]

example : "SO4--".toList ≠ [] ∧ "SO4--".toList.getLast? ≠ some ')' ∧
    ChargeParser.parseElectricCharge "SO4--".toList = .ok (-2) := by decide +kernel

/-- Upper case letters make the bracket part of the name: the solid written `CaCO3(s, Calcite)` has no known state. -/
theorem C13_upper_case_suffix_ignored : identify "CaCO3(s, Calcite)".toList = .ok .Undefined := by decide +kernel

end Verif.AggregateState
