import Verif.Lemmas.ChargeParser

/-!
# Theorem C11: parsing the electric charge of a formula recovers the charge

A formula is a body, a charge in one of three notations, and an optional suffix such as `(aq)`.
-/

namespace Verif.ChargeParser

open Verif.Formula Verif.Charge

/-- **C11 (repeated signs, `Ca++`).** Any non-empty body not ending with the sign, followed by `n ≥ 1` signs, has charge `±n`. -/
theorem C11_repeated_signs (b s : List Char) (p : Bool) (n : Nat) (hb : b ≠ []) (hl : b.getLast? ≠ some (signChar p))
    (hn : 0 < n) (hs : IsSuffix s) :
    parseElectricCharge (b ++ List.replicate n (signChar p) ++ s) = .ok (signed p n) := by
  have hlast : (b ++ List.replicate n (signChar p)).getLast? = some (signChar p) := by
    rw [List.getLast?_append]
    cases n with
    | zero => omega
    | succ n => simp [List.getLast?_replicate]
  obtain ⟨t, ht⟩ := split_suffix (b ++ List.replicate n (signChar p)) s hs (fun _ => ⟨by simp [hb], by
    rw [hlast]; cases p <;> simp [signChar]⟩)
  unfold parseElectricCharge
  rw [ht]
  simp only [Res.bind_ok', modeMultipleSigns_run b (signChar p) n hb hl hn]
  have : (n : Rat) * signVal (signChar p) = signed p n := by
    rw [signVal_signChar, mul_comm, signed_mul]
  rw [this, if_pos (signed_ne_zero p n (by exact_mod_cast Nat.pos_iff_ne_zero.1 hn))]

example : ("SO4".toList ≠ []) ∧ ("SO4".toList.getLast? ≠ some (signChar false)) ∧ IsSuffix "(aq)".toList ∧
    "SO4".toList ++ List.replicate 2 (signChar false) ++ "(aq)".toList = "SO4--(aq)".toList := by
  refine ⟨by decide, by decide, Or.inr ⟨"aq".toList, by decide, by decide⟩, by decide⟩

/-- **C11 (brackets, `Ca[2+]`).** Any body followed by `[`, an optional non-zero number, a sign and `]` has that charge. -/
theorem C11_brackets (b s : List Char) (p : Bool) (ds : Digits) (hds : ds = [] ∨ natVal ds ≠ 0) (hs : IsSuffix s) :
    parseElectricCharge (b ++ '[' :: digitsText ds ++ [signChar p, ']'] ++ s) =
      .ok (signed p (if ds = [] then 1 else natVal ds)) := by
  have hlast : (b ++ '[' :: digitsText ds ++ [signChar p, ']']).getLast? = some ']' := by
    rw [List.getLast?_append]; simp
  obtain ⟨t, ht⟩ := split_suffix (b ++ '[' :: digitsText ds ++ [signChar p, ']']) s hs (fun _ => ⟨by simp, by
    rw [hlast]; simp⟩)
  have h1 := modeMultipleSigns_zero (b ++ '[' :: digitsText ds ++ [signChar p, ']']) ']' (signChar p) hlast
    (by decide) (by decide) (by simp) (by cases p <;> decide)
  unfold parseElectricCharge
  rw [ht]
  simp only [Res.bind_ok', h1, ne_eq, not_true_eq_false, if_false]
  rw [modeBrackets_eval]
  simp only [Res.bind_ok']
  rw [if_pos]
  apply signed_ne_zero
  split
  · simp
  · rename_i hne
    rcases hds with h | h
    · exact absurd h hne
    · exact_mod_cast h

example : ([2] : Digits) = [] ∨ natVal [2] ≠ 0 := by decide

/-- **C11 (sign and number, `Ca+2`).** Any body without the opposite sign, followed by a sign and a number, has that charge. -/
theorem C11_sign_number (b s : List Char) (p : Bool) (ds : Digits) (hds : ds ≠ []) (hb : signChar (!p) ∉ b)
    (hs : IsSuffix s) :
    parseElectricCharge (b ++ signChar p :: digitsText ds ++ s) = .ok (signed p (natVal ds)) := by
  obtain ⟨ds', d, rfl⟩ : ∃ ds' d, ds = ds' ++ [d] := ⟨ds.dropLast, ds.getLast hds, (List.dropLast_concat_getLast hds).symm⟩
  have hlast : (b ++ signChar p :: digitsText (ds' ++ [d])).getLast? = some (digitChar d) := by
    rw [show b ++ signChar p :: digitsText (ds' ++ [d]) = (b ++ signChar p :: digitsText ds') ++ [digitChar d] by
      simp [digitsText], List.getLast?_append]
    rfl
  have hd : ∀ d : Fin 10, digitChar d ≠ ')' ∧ digitChar d ≠ '+' ∧ digitChar d ≠ '-' ∧ digitChar d ≠ ']' := by decide
  obtain ⟨t, ht⟩ := split_suffix (b ++ signChar p :: digitsText (ds' ++ [d])) s hs (fun _ => ⟨by simp, by
    rw [hlast]; simpa using (hd d).1⟩)
  have hne : signChar p ≠ digitChar d := by
    cases p
    · exact fun h => (hd d).2.2.1 h.symm
    · exact fun h => (hd d).2.1 h.symm
  have h1 := modeMultipleSigns_zero (b ++ signChar p :: digitsText (ds' ++ [d])) (digitChar d) (signChar p) hlast
    (hd d).2.1 (hd d).2.2.1 (by simp) hne
  have h2 : modeBrackets (b ++ signChar p :: digitsText (ds' ++ [d])) = .ok 0 := by
    unfold modeBrackets
    rw [if_pos]
    rw [hlast]; simpa using (hd d).2.2.2
  unfold parseElectricCharge
  rw [ht]
  simp only [Res.bind_ok', h1, h2, ne_eq, not_true_eq_false, if_false, modeSignNumber_eval b p _ hds hb]
  split
  · rfl
  · rename_i h
    simp only [not_not] at h
    rw [h]

example : ([2] : Digits) ≠ [] ∧ signChar (!true) ∉ "Ca".toList ∧
    "Ca".toList ++ signChar true :: digitsText [2] = "Ca+2".toList := by decide

/-- **C11 (neutral).** A body without signs whose characters are not all equal has charge zero, with or without suffix. -/
theorem C11_neutral (b s : List Char) (hp : '+' ∉ b) (hm : '-' ∉ b) (hs : IsSuffix s)
    (hl : s = [] → b.getLast? ≠ some ')') (c d : Char) (hc : b.getLast? = some c) (hd : d ∈ b) (hcd : d ≠ c) :
    parseElectricCharge (b ++ s) = .ok 0 := by
  have hb : b ≠ [] := by rintro rfl; simp at hd
  obtain ⟨t, ht⟩ := split_suffix b s hs (fun h => ⟨hb, hl h⟩)
  have hcm : c ∈ b := List.mem_of_getLast? hc
  have h1 := modeMultipleSigns_zero b c d hc (by rintro rfl; exact hp hcm) (by rintro rfl; exact hm hcm) hd hcd
  have h3 : modeSignNumber b = .ok 0 := by
    simp [modeSignNumber, rfind_not_mem '+' b hp, rfind_not_mem '-' b hm]
  have h2 : modeBrackets b = .ok 0 := by
    unfold modeBrackets
    split
    · rfl
    · rename_i hlast
      have hlen : b = b.dropLast ++ [c] := by
        obtain ⟨ys, hys⟩ := List.getLast?_eq_some_iff.1 hc
        rw [hys]; simp
      split
      · rfl
      · split
        · rename_i hn
          exfalso
          have : b.dropLast = [] := List.getLast?_eq_none_iff.1 hn
          rw [this] at hlen
          rw [hlen] at hd
          simp at hd
          exact hcd hd
        · rename_i x hx
          have hxm : x ∈ b := (List.dropLast_sublist b).subset (List.mem_of_getLast? hx)
          have hx1 : x ≠ '+' := by rintro rfl; exact hp hxm
          have hx2 : x ≠ '-' := by rintro rfl; exact hm hxm
          simp [signVal, hx1, hx2]
  unfold parseElectricCharge
  rw [ht]
  simp [h1, h2, h3]

example : '+' ∉ "H2O".toList ∧ '-' ∉ "H2O".toList ∧ "H2O".toList.getLast? = some 'O' ∧ 'H' ∈ "H2O".toList := by decide

/-- **C11 is false of the code for formulas made of one repeated character.** For a single-letter formula such as `C` or `K`
the parser reads the character before the beginning of the string. -/
theorem C11_single_character_ub (c : Char) (n : Nat) (hc : c ≠ ')') (hn : 0 < n) :
    parseElectricCharge (List.replicate n c) = .ub := by
  have hlast : (List.replicate n c).getLast? = some c := by
    cases n with
    | zero => omega
    | succ n => simp [List.getLast?_replicate]
  have h1 : splitSpeciesNameSuffix (List.replicate n c) = .ok (List.replicate n c, []) := by
    unfold splitSpeciesNameSuffix; rw [hlast]; simp [hc]
  have h2 : modeMultipleSigns (List.replicate n c) = .ub := by
    unfold modeMultipleSigns
    rw [hlast]
    simp [List.takeWhile_replicate]
  unfold parseElectricCharge
  rw [h1]
  simp [h2]

/-- **C11 is false of the code for bodies with the opposite sign in the sign-number notation.** In `X-Y+2` the sign read is
the leftmost one and the rest, `Y+2`, is not a number: the parser throws. -/
theorem C11_opposite_sign_throws : parseElectricCharge "X-Y+2".toList = .throw := by decide +kernel

end Verif.ChargeParser
