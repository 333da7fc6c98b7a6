import Verif.Model.ParseReaction
import Verif.Theorems.Strings

/-!
# Reactions written as text (C72)
-/

namespace Verif.ParseReaction

open Strings NumberText

/-- A text with at least one character, and neither spaces nor colons. -/
def Plain (s : List Char) : Prop := s ≠ [] ∧ ' ' ∉ s ∧ ':' ∉ s

theorem split_pair {a b : List Char} (ha : Plain a) (hb : Plain b) : split (a ++ ':' :: b) [':'] = [a, b] := by
  have h := C08_split_join [a, b] [':'] [':'] (by simp) (by simp) (by
    intro w hw
    simp only [List.mem_cons, List.not_mem_nil, or_false] at hw
    rcases hw with rfl | rfl
    · exact ⟨ha.1, fun c hc h => ha.2.2 (by simp at h; exact h ▸ hc)⟩
    · exact ⟨hb.1, fun c hc h => hb.2.2 (by simp at h; exact h ▸ hc)⟩)
  simpa [join, joinGo] using h

/-- **C72 (reactions).** The text of a reaction, numbers and names with a colon between them, is read as the names with their numbers, in order; names that are
given twice stay twice. -/
theorem C72_reaction (l : List (List Char × List Char)) (h : ∀ p ∈ l, Plain p.1 ∧ Plain p.2) :
    parseReaction (join (l.map fun p => p.1 ++ ':' :: p.2) [' ']) = .ok (l.map fun p => (p.2, tofloat p.1)) := by
  unfold parseReaction
  rw [C08_split_join _ [' '] [' '] (by simp) (by simp) (by
    intro w hw
    obtain ⟨p, hp, rfl⟩ := List.mem_map.1 hw
    refine ⟨by simp, fun c hc h' => ?_⟩
    simp only [List.mem_cons, List.not_mem_nil, or_false] at h'
    subst h'
    simp only [List.mem_append, List.mem_cons] at hc
    rcases hc with hc | hc | hc
    · exact (h p hp).1.2.1 hc
    · simp at hc
    · exact (h p hp).2.2.1 hc)]
  induction l with
  | nil => rfl
  | cons p l ih =>
    obtain ⟨ha, hb⟩ := h p (by simp)
    simp only [List.map_cons, parseWords, parseWord, split_pair ha hb]
    rw [ih fun q hq => h q (by simp [hq])]
    rfl

theorem parseWord_cases (w : List Char) : (∃ p, parseWord w = .ok p) ∧ 2 ≤ (split w [':']).length ∨ parseWord w = .ub ∧ (split w [':']).length < 2 := by
  unfold parseWord
  match split w [':'] with
  | [] => right; exact ⟨rfl, by simp⟩
  | [a] => right; exact ⟨rfl, by simp⟩
  | a :: b :: l => left; exact ⟨⟨_, rfl⟩, by simp⟩

/-- **C72 fails** for other texts: memory beyond the parts of a word is read if, and only if, a word has not two parts; there is never an error. -/
theorem C72_reaction_wrong (s : List Char) :
    (parseReaction s = .ub ↔ ∃ w ∈ split s [' '], (split w [':']).length < 2) ∧ parseReaction s ≠ .throw := by
  unfold parseReaction
  induction split s [' '] with
  | nil => simp [parseWords]
  | cons w ws ih =>
    obtain ⟨h1, h2⟩ := ih
    simp only [parseWords]
    rcases parseWord_cases w with ⟨⟨p, hp⟩, hl⟩ | ⟨hp, hl⟩
    · rw [hp, Res.bind_ok']
      cases hr : parseWords ws with
      | ok l =>
        rw [hr] at h1
        refine ⟨⟨fun h => (by simp [Res.bind_ok'] at h), ?_⟩, by simp [Res.bind_ok']⟩
        rintro ⟨v, hv, hv'⟩
        rcases List.mem_cons.1 hv with rfl | hv
        · omega
        · exact absurd (h1.2 ⟨v, hv, hv'⟩) (by simp)
      | throw => exact absurd hr h2
      | ub =>
        obtain ⟨v, hv, hv'⟩ := h1.1 hr
        exact ⟨⟨fun _ => ⟨v, by simp [hv], hv'⟩, fun _ => rfl⟩, by simp [Res.bind]⟩
    · rw [hp]
      exact ⟨⟨fun _ => ⟨w, by simp, hl⟩, fun _ => rfl⟩, by simp [Res.bind]⟩

/-- Two reactions; the second has a name without a number. -/
example : Plain c!"-1" ∧ Plain c!"H2O" ∧ (split c!"1:H2O H+" [' ']) = [c!"1:H2O", c!"H+"] ∧ (split c!"H+" [':']).length < 2 := by
  refine ⟨⟨by decide, by decide, by decide⟩, ⟨by decide, by decide, by decide⟩, ?_, ?_⟩
  · exact split_join [c!"1:H2O", c!"H+"] [' '] [' '] (by simp) (by simp) (by decide)
  · have := split_join [c!"H+"] [':'] [':'] (by simp) (by simp) (by decide)
    rw [show split c!"H+" [':'] = [c!"H+"] from this]
    simp

end Verif.ParseReaction
