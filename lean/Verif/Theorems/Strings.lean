import Verif.Lemmas.Strings

/-!
# Theorems C07–C09: string utilities
-/

namespace Verif.Strings

/-- **C07 (every input).** `makeunique` keeps the number of words and only appends suffixes to each word. -/
theorem C07_makeunique_extends (ws : List Str) (s : Str) :
    ∃ h : (makeunique ws s).length = ws.length,
      ∀ (i : Nat) (hi : i < ws.length), ∃ k, (makeunique ws s)[i] = ws[i] ++ repeated s k :=
  ⟨makeunique_length ws s, fun i hi => makeunique_extends s ws i hi⟩

/-- **C07 (every input without duplicates).** Words that are already distinct are returned unchanged. -/
theorem C07_makeunique_keeps_distinct (ws : List Str) (s : Str) (h : ws.Nodup) : makeunique ws s = ws :=
  makeunique_of_nodup s ws h

/-- **C07 (partial).** Full statement: `(makeunique ws s).Nodup` for every list; it is false (`C07_makeunique_collision`).
What holds: if no word is another word followed by suffixes, the result has no duplicates and the `i`-th word gets one
suffix per earlier occurrence of the same word. Missing: lists where some word already ends with the suffix of another. -/
theorem C07_makeunique_distinct_partial (ws : List Str) (s : Str) (hc : Clean ws s) :
    (makeunique ws s).Nodup ∧
    ∀ (i : Nat) (hi : i < ws.length),
      (makeunique ws s)[i]? = some (ws[i] ++ repeated s ((ws.take i).count ws[i])) := by
  refine ⟨makeunique_nodup s ws hc, fun i hi => ?_⟩
  rw [List.getElem?_eq_getElem (by rw [makeunique_length]; exact hi), makeunique_getElem s ws hc i hi]

example : Clean [['A'], ['B'], ['A'], ['A']] ['!'] ∧
    makeunique [['A'], ['B'], ['A'], ['A']] ['!'] = [['A'], ['B'], ['A', '!'], ['A', '!', '!']] := by
  refine ⟨⟨by simp, ?_⟩, by decide⟩
  intro x hx y hy k hk
  have hlen := congrArg List.length hk
  simp only [List.length_append, repeated_length, List.length_singleton, Nat.mul_one] at hlen
  have h1 : x.length = 1 := by simp at hx; rcases hx with rfl | rfl | rfl <;> rfl
  have h2 : y.length = 1 := by simp at hy; rcases hy with rfl | rfl | rfl <;> rfl
  have : k = 0 := by omega
  subst this
  simpa [repeated] using hk

/-- **C07 is false of the code.** `makeunique({"A!", "A", "A"}, "!")` returns `{"A!", "A", "A!"}`. -/
theorem C07_makeunique_collision :
    makeunique [['A', '!'], ['A'], ['A']] ['!'] = [['A', '!'], ['A'], ['A', '!']] ∧
    ¬ (makeunique [['A', '!'], ['A'], ['A']] ['!']).Nodup := by decide

/-- **C08 (split).** For every string and delimiters, `split` returns exactly the maximal runs of non-delimiters: they
satisfy `Fields`, and nothing else does. -/
theorem C08_split_fields (s d : Str) (ws : List Str) : split s d = ws ↔ Fields d s ws :=
  ⟨fun h => h ▸ split_fields d s, fields_unique d s ws⟩

/-- **C08 (nothing lost).** The words returned by `split` are non-empty, free of delimiters, and their concatenation is the
input without its delimiters. -/
theorem C08_split_words (s d : Str) :
    (∀ w ∈ split s d, w ≠ [] ∧ ∀ c ∈ w, c ∉ d) ∧ (split s d).flatten = s.filter (fun c => decide (c ∉ d)) := by
  have h := split_fields d s
  generalize split s d = ws at h
  induction h with
  | none sep hsep => simpa [List.filter_eq_nil_iff] using hsep
  | word sep w rest ws hsep hne hw hrest _ ih =>
    refine ⟨?_, ?_⟩
    · intro x hx
      rcases List.mem_cons.1 hx with rfl | hx
      · exact ⟨hne, hw⟩
      · exact ih.1 x hx
    · have e1 : sep.filter (fun c => decide (c ∉ d)) = [] := by simpa [List.filter_eq_nil_iff] using hsep
      have e2 : w.filter (fun c => decide (c ∉ d)) = w := by simpa [List.filter_eq_self] using hw
      rw [List.filter_append, List.filter_append, e1, e2, List.flatten_cons, ih.2]
      rfl

/-- **C08 (join).** `join` puts the separator between consecutive strings. -/
theorem C08_join_intercalate (ws : List Str) (sep : Str) : join ws sep = sep.intercalate ws :=
  join_eq_intercalate ws sep

/-- **C08 (round trip).** Splitting a join of non-empty delimiter-free words with a non-empty separator made of delimiters
gives the words back. -/
theorem C08_split_join (ws : List Str) (sep d : Str) (hsep : sep ≠ []) (hsd : ∀ c ∈ sep, c ∈ d)
    (hws : ∀ w ∈ ws, w ≠ [] ∧ ∀ c ∈ w, c ∉ d) : split (join ws sep) d = ws :=
  split_join ws sep d hsep hsd hws

example : ([' ', ','] : Str) ≠ [] ∧ (∀ c ∈ ([' ', ','] : Str), c ∈ ([',', ' '] : Str)) ∧
    (∀ w ∈ ([['H'], ['O', 'H']] : List Str), w ≠ [] ∧ ∀ c ∈ w, c ∉ ([',', ' '] : Str)) ∧
    join [['H'], ['O', 'H']] [' ', ','] = ['H', ' ', ',', 'O', 'H'] := by
  refine ⟨by decide, by decide, by decide, by decide⟩

/-- **C08 (trim).** `trim` removes exactly the white space at both ends. -/
theorem C08_trim (s : Str) : ∃ a b, s = a ++ trim s ++ b ∧ (∀ c ∈ a, c ∈ whiteChars) ∧ (∀ c ∈ b, c ∈ whiteChars) ∧
    (∀ c ∈ (trim s).head?, c ∉ whiteChars) ∧ (∀ c ∈ (trim s).getLast?, c ∉ whiteChars) := by
  obtain ⟨b, h1, h2, h3⟩ := trimright_spec s
  obtain ⟨a, g1, g2, g3⟩ := trimleft_spec (trimright s)
  refine ⟨a, b, ?_, fun c hc => (isSpace_iff c).1 (g2 c hc), fun c hc => (isSpace_iff c).1 (h2 c hc), ?_, ?_⟩
  · show s = a ++ trimleft (trimright s) ++ b
    rw [← g1]; exact h1
  · intro c hc hw
    have := g3 c hc
    rw [(isSpace_iff c).2 hw] at this
    simp at this
  · intro c hc hw
    have hlast : c ∈ (trimright s).getLast? := by
      change c ∈ (trimleft (trimright s)).getLast? at hc
      rw [g1]
      cases ht : trimleft (trimright s) with
      | nil => rw [ht] at hc; simp at hc
      | cons x xs => rw [ht] at hc; rw [List.getLast?_append, Option.mem_def.1 hc]; simp
    have := h3 c hlast
    rw [(isSpace_iff c).2 hw] at this
    simp at this

/-- **C09 (nothing lost).** For every string that is not just white space, joining the tokens of the string list with the
separator gives back the trimmed string. -/
theorem C09_stringList_join (s : Str) (token : Char) (h : trim s ≠ []) :
    [token].intercalate (stringList s token) = trim s := by
  unfold stringList convertStringToStrings
  rw [if_pos h, convertHelper_join]
  rfl

/-- **C09 (brackets kept together).** If the brackets of the trimmed string are balanced, every token has balanced
brackets and no separator outside brackets. -/
theorem C09_stringList_tokens (s : Str) (token : Char) (h1 : token ≠ '(') (h2 : token ≠ ')')
    (hs : balanced (trim s) = true) : ∀ t ∈ stringList s token, balanced t = true ∧ noSep token t = true := by
  unfold stringList convertStringToStrings
  split
  · exact convertHelper_tokens token h1 h2 [] (trim s) hs ⟨fun _ => rfl, fun _ => rfl⟩
  · simp

example : trim " H2O e(Ca (u v)) x".toList ≠ [] ∧ balanced (trim " H2O e(Ca (u v)) x".toList) = true := by decide

example : stringList " H2O e(C (u v)) x".toList ' ' = ["H2O".toList, "e(C (u v))".toList, "x".toList] := by
  rw [stringList, show trim " H2O e(C (u v)) x".toList = "H2O e(C (u v)) x".toList by decide, convertStringToStrings]
  simp [convertHelper, findMatchingBracket, nextLevel]

end Verif.Strings
