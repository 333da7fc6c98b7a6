import Verif.Model.ChargeParser
import Verif.Spec.Charge
import Verif.Lemmas.FormulaParser

namespace Verif.ChargeParser

open Verif.Numbers Verif.Formula Verif.Charge Verif.FormulaParser

theorem rfind_not_mem (c : Char) (s : Str) (h : c ∉ s) : rfind c s = none := by
  induction s with
  | nil => rfl
  | cons x s ih =>
    simp only [List.mem_cons, not_or] at h
    simp [rfind, ih h.2, Ne.symm h.1]

theorem rfind_append (c : Char) (a b : Str) (hb : c ∉ b) : rfind c (a ++ c :: b) = some (a, b) := by
  induction a with
  | nil => simp [rfind, rfind_not_mem c b hb]
  | cons x a ih => simp [rfind, ih]

/-- The suffix is removed. -/
theorem split_suffix (f s : Str) (hs : IsSuffix s) (hf : s = [] → f ≠ [] ∧ f.getLast? ≠ some ')') :
    ∃ t, splitSpeciesNameSuffix (f ++ s) = .ok (f, t) := by
  rcases hs with rfl | ⟨t, rfl, ht⟩
  · obtain ⟨h1, h2⟩ := hf rfl
    refine ⟨[], ?_⟩
    simp only [List.append_nil, splitSpeciesNameSuffix]
    cases hl : f.getLast? with
    | none => exact absurd (List.getLast?_eq_none_iff.1 hl) h1
    | some l =>
      have : l ≠ ')' := by rintro rfl; exact h2 hl
      simp [this]
  · refine ⟨t, ?_⟩
    have hlast : (f ++ ('(' :: t ++ [')'])).getLast? = some ')' := by
      rw [← List.append_assoc, List.getLast?_append]; rfl
    have hr : rfind '(' (f ++ ('(' :: t ++ [')'])) = some (f, t ++ [')']) := by
      have := rfind_append '(' f (t ++ [')']) (by simp; exact fun h => (ht _ h).1 rfl)
      simpa using this
    unfold splitSpeciesNameSuffix
    rw [hlast, hr]
    have hany : (t ++ [')']).dropLast.any Char.isUpper = false := by
      simp only [List.dropLast_concat, List.any_eq_false]
      intro c hc; simp [(ht c hc).2]
    simp only [ne_eq, not_true_eq_false, if_false, hany, List.dropLast_concat]
    simp only [List.dropLast_concat] at hany
    simp [hany]

/-- The run of equal characters at the end. -/
theorem trailing_run (b : Str) (c : Char) (n : Nat) (hb : b.getLast? ≠ some c) :
    ((b ++ List.replicate n c).reverse.takeWhile (fun x => x == c)).length = n := by
  rw [List.reverse_append, List.reverse_replicate]
  have := (FormulaParser.takeWhile_all (fun x => x == c) (List.replicate n c) b.reverse
    (by intro x hx; simp [List.eq_of_mem_replicate hx])
    (by
      intro x hx
      rw [List.head?_reverse] at hx
      simp only [beq_eq_false_iff_ne, ne_eq]
      rintro rfl
      exact hb hx)).1
  rw [this]; simp

theorem modeMultipleSigns_run (b : Str) (c : Char) (n : Nat) (hb0 : b ≠ []) (hb : b.getLast? ≠ some c) (hn : 0 < n) :
    modeMultipleSigns (b ++ List.replicate n c) = .ok ((n : Rat) * signVal c) := by
  have hlast : (b ++ List.replicate n c).getLast? = some c := by
    rw [List.getLast?_append]
    cases n with
    | zero => omega
    | succ n => simp [List.getLast?_replicate]
  have hlen : 0 < b.length := List.length_pos_iff.2 hb0
  unfold modeMultipleSigns
  rw [hlast]
  simp only [trailing_run b c n hb]
  rw [if_neg (by simp; omega)]

/-- Last character not a sign and not all characters equal: no charge found by the first mode. -/
theorem modeMultipleSigns_zero (f : Str) (c d : Char) (hc : f.getLast? = some c) (h1 : c ≠ '+') (h2 : c ≠ '-')
    (hd : d ∈ f) (hcd : d ≠ c) : modeMultipleSigns f = .ok 0 := by
  unfold modeMultipleSigns
  rw [hc]
  simp only [signVal, h1, h2, if_false, mul_zero]
  rw [if_neg]
  intro h
  have hsub := List.takeWhile_prefix (fun x => x == c) (l := f.reverse)
  have heq : f.reverse.takeWhile (fun x => x == c) = f.reverse := hsub.eq_of_length (by simpa using h)
  have := List.all_eq_true.1 (List.all_takeWhile (p := fun x => x == c) (l := f.reverse)) d (by rw [heq]; simpa using hd)
  exact hcd (by simpa using this)

theorem startsDecimal_digits (ds : Digits) (h : ds ≠ []) (b : Str) : startsDecimal (digitsText ds ++ b) = true := by
  cases ds with
  | nil => exact absurd rfl h
  | cons d ds =>
    have h1 := digitChar_isDigit d
    have h2 := digitChar_ne_dot d
    simp only [digitsText, List.map_cons, List.cons_append]
    unfold startsDecimal
    split
    · rename_i heq; simp at heq; exact absurd heq.1 h2
    · rename_i heq; simp at heq; rw [← heq.1]; exact h1
    · rename_i heq; simp at heq

theorem stod_digits (ds : Digits) (h : ds ≠ []) : stod (digitsText ds) = .ok (natVal ds : Rat) := by
  have hs := startsDecimal_digits ds h []
  have hv := decimalPrefix_int ds [] (by simp)
  simp only [List.append_nil] at hs hv
  unfold stod
  split
  · rename_i s heq
    have hh := digitsText_head ds [] '-' (by decide) (by simp)
    rw [List.append_nil, heq] at hh
    exact absurd rfl hh
  · rename_i s heq
    have hh := digitsText_head ds [] '+' (by decide) (by simp)
    rw [List.append_nil, heq] at hh
    exact absurd rfl hh
  · simp [hs, hv]

theorem signVal_signChar (p : Bool) : signVal (signChar p) = signed p 1 := by cases p <;> simp [signVal, signChar, signed]

theorem signed_mul (p : Bool) (x : Rat) : signed p 1 * x = signed p x := by cases p <;> simp [signed]

theorem signed_ne_zero (p : Bool) (x : Rat) (h : x ≠ 0) : signed p x ≠ 0 := by cases p <;> simpa [signed] using h

theorem not_mem_digits (c : Char) (hc : c.isDigit = false) (ds : Digits) : c ∉ digitsText ds := by
  intro h
  have := digitsText_all ds c h
  rw [hc] at this; simp at this

theorem modeBrackets_eval (b : Str) (p : Bool) (ds : Digits) :
    modeBrackets (b ++ '[' :: digitsText ds ++ [signChar p, ']']) =
      .ok (signed p (if ds = [] then 1 else natVal ds)) := by
  have hlast : (b ++ '[' :: digitsText ds ++ [signChar p, ']']).getLast? = some ']' := by
    rw [List.getLast?_append]; simp
  have hr : rfind '[' (b ++ '[' :: digitsText ds ++ [signChar p, ']']) = some (b, digitsText ds ++ [signChar p, ']']) := by
    have := rfind_append '[' b (digitsText ds ++ [signChar p, ']']) (by
      simp only [List.mem_append, List.mem_cons, List.not_mem_nil, or_false, not_or]
      exact ⟨not_mem_digits '[' (by decide) ds, by cases p <;> decide, by decide⟩)
    simpa using this
  have hdl : (b ++ '[' :: digitsText ds ++ [signChar p, ']']).dropLast.getLast? = some (signChar p) := by
    rw [show b ++ '[' :: digitsText ds ++ [signChar p, ']'] = (b ++ '[' :: digitsText ds ++ [signChar p]) ++ [']'] by simp,
      List.dropLast_concat, List.getLast?_append]
    rfl
  have hdd : (digitsText ds ++ [signChar p, ']']).dropLast.dropLast = digitsText ds := by
    rw [show digitsText ds ++ [signChar p, ']'] = (digitsText ds ++ [signChar p]) ++ [']'] by simp]
    simp
  unfold modeBrackets
  rw [if_neg (by rw [hlast]; simp), hr]
  simp only [hdl, hdd]
  have hz : signVal (signChar p) ≠ 0 := by rw [signVal_signChar]; exact signed_ne_zero p 1 (by simp)
  rw [if_neg hz]
  by_cases hds : ds = []
  · subst hds; simp [digitsText, signVal_signChar]
  · have : digitsText ds ≠ [] := by simpa [digitsText] using hds
    rw [if_neg this, stod_digits ds hds]
    simp [hds, signVal_signChar, signed_mul]

theorem modeSignNumber_eval (b : Str) (p : Bool) (ds : Digits) (hds : ds ≠ []) (hb : signChar (!p) ∉ b) :
    modeSignNumber (b ++ signChar p :: digitsText ds) = .ok (signed p (natVal ds)) := by
  have hne : digitsText ds ≠ [] := by simpa [digitsText] using hds
  have hplus : ('+' : Char) ∉ digitsText ds := not_mem_digits '+' (by decide) ds
  have hminus : ('-' : Char) ∉ digitsText ds := not_mem_digits '-' (by decide) ds
  unfold modeSignNumber
  cases p with
  | true =>
    simp only [signChar, Bool.not_true, Bool.false_eq_true, if_false] at hb
    simp only [signChar, if_true]
    rw [rfind_append '+' b _ hplus, rfind_not_mem '-' _ (by simp [hb, hminus])]
    simp [hne, stod_digits ds hds, signed]
  | false =>
    simp only [signChar, Bool.not_false, if_true] at hb
    simp only [signChar, Bool.false_eq_true, if_false]
    rw [rfind_append '-' b _ hminus, rfind_not_mem '+' _ (by simp [hb, hplus])]
    simp [hne, stod_digits ds hds, signed]

end Verif.ChargeParser
