import Verif.Lemmas.NumberText

/-!
# C72 : compositions and reactions written as text are read back to six digits
-/

namespace Verif.NumberText

/-- **C72**, one number : what is read from the text of a number is a number with at most six significant digits, none of those is closer to
the number that was written, and the relative error is at most `5e-6`. -/
theorem C72_number (x : ℚ) : Nearest x (tofloat (format x)) ∧ |tofloat (format x) - x| ≤ 5 / 10 ^ 6 * |x| := by
  rw [tofloat_format]
  exact reread_nearest x

/-- **C72**, exactness : the number is read back unchanged if and only if six significant digits are enough for it. -/
theorem C72_exact_iff (x : ℚ) : tofloat (format x) = x ↔ SixDigits x := by
  obtain ⟨⟨h1, h2⟩, -⟩ := C72_number x
  constructor
  · intro h; rwa [h] at h1
  · intro h
    have := h2 x h
    rw [sub_self, abs_zero] at this
    exact sub_eq_zero.1 (abs_nonpos_iff.1 this)

/-- **C72**, texts : for any list of symbols without spaces, all different, the text of a composition gives back the symbols in order, each
with its own coefficient read from its own text. -/
theorem C72_pairs (l : List (Str × ℚ)) (hs : ∀ p ∈ l, ' ' ∉ p.1) (hd : (l.map Prod.fst).Nodup) :
    parseNumberStringPairs (repr 0 l) = l.map fun p => (p.1, tofloat (format p.2)) := by
  unfold parseNumberStringPairs
  rw [split_repr l hs, foldl_addPair_distinct _ _ (by simpa [Function.comp_def] using hd), List.nil_append]
  simp only [tofloat_format]

/-- Symbols given more than once appear once, with the sum of their coefficients. -/
theorem C72_pairs_repeated (l : List (Str × ℚ)) (hs : ∀ p ∈ l, ' ' ∉ p.1) :
    ((parseNumberStringPairs (repr 0 l)).map Prod.fst).Nodup ∧
    (∀ s, s ∈ (parseNumberStringPairs (repr 0 l)).map Prod.fst ↔ s ∈ l.map Prod.fst) ∧
    ∀ s, total (parseNumberStringPairs (repr 0 l)) s = total (l.map fun p => (p.1, tofloat (format p.2))) s := by
  unfold parseNumberStringPairs
  rw [split_repr l hs]
  obtain ⟨h1, h2, h3⟩ := foldl_addPair_spec (l.map fun p => (p.1, reread p.2)) [] (by simp)
  refine ⟨h1, ?_, ?_⟩
  · intro s; rw [h2]; simp
  · intro s; rw [h3]; simp only [tofloat_format]; simp [total]

/-- **C72 (partial)** : a composition with distinct symbols without spaces is read back unchanged when all coefficients have at most six
significant digits.  Full statement : for all coefficients; that is false, see `C72_exact_wrong`. -/
theorem C72_composition_partial (l : List (Str × ℚ)) (hs : ∀ p ∈ l, ' ' ∉ p.1) (hd : (l.map Prod.fst).Nodup)
    (h : ∀ p ∈ l, SixDigits p.2) : parseNumberStringPairs (repr 0 l) = l := by
  rw [C72_pairs l hs hd]
  conv_rhs => rw [← List.map_id l]
  refine List.map_congr_left fun p hp => ?_
  rw [(C72_exact_iff p.2).2 (h p hp)]
  rfl

/-- **C72 (the full statement is false)** : one coefficient with more than six significant digits is enough for the composition, or
reaction, that is read back to differ from the one that was saved. -/
theorem C72_exact_wrong (l : List (Str × ℚ)) (hs : ∀ p ∈ l, ' ' ∉ p.1) (hd : (l.map Prod.fst).Nodup) (p : Str × ℚ) (hp : p ∈ l)
    (h : ¬ SixDigits p.2) : parseNumberStringPairs (repr 0 l) ≠ l := by
  rw [C72_pairs l hs hd]
  intro he
  obtain ⟨i, hi, rfl⟩ := List.getElem_of_mem hp
  have := congrArg (fun l' => l'[i]?) he
  simp only [List.getElem?_map, List.getElem?_eq_getElem hi, Option.map_some, Option.some.injEq] at this
  exact h ((C72_exact_iff _).1 (congrArg Prod.snd this))

/-! ### Examples -/

/-- An illite : the coefficients have few digits, the text is what one expects and is read back. -/
example : repr 0 [(c!"K", 0.85), (c!"Al", 2.85), (c!"Si", 3.15), (c!"O", 12), (c!"H", 2)] = c!"0.85:K 2.85:Al 3.15:Si 12:O 2:H" ∧
    parseNumberStringPairs c!"0.85:K 2.85:Al 3.15:Si 12:O 2:H" = [(c!"K", 0.85), (c!"Al", 2.85), (c!"Si", 3.15), (c!"O", 12), (c!"H", 2)] := by
  decide +kernel

example : SixDigits 12.25 ∧ SixDigits (-1000000000) ∧ SixDigits 0.00000025 :=
  ⟨⟨1225, -2, by norm_num, by norm_num⟩, ⟨-1, 9, by norm_num, by norm_num⟩, ⟨25, -8, by norm_num, by norm_num⟩⟩

/-- A coefficient with eight digits. -/
example : format 1.2345678 = c!"1.23457" ∧ tofloat c!"1.23457" = 1.23457 ∧ ¬ SixDigits 1.2345678 ∧
    parseNumberStringPairs (repr 0 [(c!"Fe", 1.2345678), (c!"O", 2)]) ≠ [(c!"Fe", 1.2345678), (c!"O", 2)] := by
  have h : ¬ SixDigits 1.2345678 := by
    rw [← C72_exact_iff]; decide +kernel
  exact ⟨by decide +kernel, by decide +kernel, h,
    C72_exact_wrong [(c!"Fe", 1.2345678), (c!"O", 2)] (by decide) (by decide) _ (List.mem_cons_self ..) h⟩

/-- Numbers of different sizes. -/
example : format (2/3) = c!"0.666667" ∧ format (-1234567) = c!"-1.23457e+06" ∧ format 999999.5 = c!"1e+06" ∧ format 0.0001 = c!"0.0001" ∧
    format 0.00001 = c!"1e-05" ∧ format 100 = c!"100" ∧ tofloat c!"-1.23457e+06" = -1234570 := by decide +kernel

/-- Symbols given twice. -/
example : parseNumberStringPairs (repr 0 [(c!"H", 1), (c!"O", 2), (c!"H", 3)]) = [(c!"H", 4), (c!"O", 2)] := by decide +kernel

end Verif.NumberText
