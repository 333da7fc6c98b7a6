import Verif.Lemmas.ReactionEquation
import Mathlib.Tactic.NormNum

/-!
# Theorem C12: reaction equations compare by content and are parsed as written
-/

namespace Verif.ReactionEquation

open Verif.Formula

/-- **C12 (coefficient).** The coefficient of a species listed once is the one given; that of a species not listed is zero. -/
theorem C12_coefficient (eq : Equation) (h : (eq.map Prod.fst).Nodup) :
    (∀ n c, (n, c) ∈ eq → coefficient eq n = c) ∧ (∀ n, n ∉ eq.map Prod.fst → coefficient eq n = 0) :=
  ⟨fun n c => coefficient_of_mem eq h n c, fun n => coefficient_of_not_mem eq n⟩

/-- **C12 (equality).** For equations without repeated species and any tolerance `eps ≥ 0`, equality holds if and only if
both have the same species and every species has, up to `eps`, the same coefficient. -/
theorem C12_equal_iff (eps : Rat) (lhs rhs : Equation) (hl : (lhs.map Prod.fst).Nodup) (hr : (rhs.map Prod.fst).Nodup) :
    equal eps lhs rhs = true ↔
      (∀ n, (∃ c, (n, c) ∈ lhs) ↔ ∃ c, (n, c) ∈ rhs) ∧
      (∀ n c c', (n, c) ∈ lhs → (n, c') ∈ rhs → |c - c'| ≤ eps) := by
  rw [equal_iff]
  have hmem : ∀ (l : Equation) n, n ∈ l.map Prod.fst ↔ ∃ c, (n, c) ∈ l := by
    intro l n; simp
  simp only [hmem]
  constructor
  · rintro ⟨h1, h2⟩
    refine ⟨h1, fun n c c' hc hc' => ?_⟩
    have := h2 n ⟨c, hc⟩
    rwa [coefficient_of_mem lhs hl n c hc, coefficient_of_mem rhs hr n c' hc'] at this
  · rintro ⟨h1, h2⟩
    refine ⟨h1, ?_⟩
    rintro n ⟨c, hc⟩
    obtain ⟨c', hc'⟩ := (h1 n).1 ⟨c, hc⟩
    rw [coefficient_of_mem lhs hl n c hc, coefficient_of_mem rhs hr n c' hc']
    exact h2 n c c' hc hc'

/-- **C12 (order does not matter).** Equations with the same terms in any order are equal. -/
theorem C12_order_irrelevant (eps : Rat) (heps : 0 ≤ eps) (lhs rhs : Equation) (hl : (lhs.map Prod.fst).Nodup)
    (hp : lhs.Perm rhs) : equal eps lhs rhs = true := by
  have hr : (rhs.map Prod.fst).Nodup := (hp.map Prod.fst).nodup_iff.1 hl
  rw [C12_equal_iff eps lhs rhs hl hr]
  refine ⟨fun n => ⟨fun ⟨c, h⟩ => ⟨c, hp.mem_iff.1 h⟩, fun ⟨c, h⟩ => ⟨c, hp.mem_iff.2 h⟩⟩, ?_⟩
  intro n c c' hc hc'
  have h1 := coefficient_of_mem lhs hl n c hc
  have h2 := coefficient_of_mem lhs hl n c' (hp.mem_iff.2 hc')
  rw [← h1, ← h2]
  simpa using heps

example : (([(['A'], -1), (['B'], 2)] : Equation).map Prod.fst).Nodup ∧
    ([(['A'], -1), (['B'], 2)] : Equation).Perm [(['B'], 2), (['A'], -1)] :=
  ⟨by decide, List.Perm.swap _ _ _⟩

/-- **C12 (parsing).** For all lists of terms with at least one on each side, parsing the written equation returns the
reactants with negative and the products with positive coefficients, in order. -/
theorem C12_parse_equation (rs ps : List Term) (hr : rs ≠ []) (hp : ps ≠ []) (hrs : ∀ t ∈ rs, t.WF) (hps : ∀ t ∈ ps, t.WF) :
    parseReactionEquation (equationText rs ps) =
      .ok (rs.map (fun t => (t.name, -t.num.val)) ++ ps.map (fun t => (t.name, t.num.val))) := by
  have hL := sideWords_props rs hrs
  have hR := sideWords_props ps hps
  have hLne : (sideWords rs).flatMap (fun w => w ++ [' ']) ≠ [] := by
    have := sideWords_ne_nil rs hr
    cases h : sideWords rs with
    | nil => exact absurd h this
    | cons w ws => simp
  have hRne : (sideWords ps).flatMap (fun w => ' ' :: w) ≠ [] := by
    have := sideWords_ne_nil ps hp
    cases h : sideWords ps with
    | nil => exact absurd h this
    | cons w ws => simp
  have hsplit : Strings.split (equationText rs ps) ['='] =
      [(sideWords rs).flatMap (fun w => w ++ [' ']), (sideWords ps).flatMap (fun w => ' ' :: w)] := by
    unfold equationText
    rw [Strings.split_word ['='] _ _ hLne _ (by simp), Strings.split_cons_delim _ _ _ (by simp)]
    · have := Strings.split_word ['='] ((sideWords ps).flatMap (fun w => ' ' :: w)) [] hRne (by
        intro c hc
        simp only [List.mem_flatMap, List.mem_cons] at hc
        obtain ⟨w, hw, rfl | hc⟩ := hc
        · decide
        · simp; rintro rfl; exact (hR w hw).2.2 hc) (by simp)
      simpa [Strings.split_nil] using this
    · intro c hc
      simp only [List.mem_flatMap, List.mem_append, List.mem_singleton] at hc
      obtain ⟨w, hw, hc | rfl⟩ := hc
      · simp; rintro rfl; exact (hL w hw).2.2 hc
      · decide
  unfold parseReactionEquation
  rw [hsplit]
  simp only [split_flatMap_after ' ' _ (fun w hw => ⟨(hL w hw).1, (hL w hw).2.1⟩),
    split_flatMap_before ' ' _ (fun w hw => ⟨(hR w hw).1, (hR w hw).2.1⟩), parseWords_side _ rs hrs, parseWords_side _ ps hps,
    Res.bind_ok']
  simp

example : (Term.mk (.int [2]) "Cl-".toList).WF ∧ (Term.mk .implicit "Ca++".toList).WF ∧
    equationText [⟨.implicit, "CaCl2".toList⟩] [⟨.implicit, "Ca++".toList⟩, ⟨.int [2], "Cl-".toList⟩] =
      "CaCl2 = Ca++ + 2*Cl-".toList := by
  refine ⟨⟨by simp [Num.WF], by decide, by decide, by decide⟩, ⟨trivial, by decide, by decide, by decide⟩, by decide⟩

/-- **C12 is false of the code (printing).** `H2O = H+ + OH-` prints as `H2O= H+ O`: products are not separated by `+` and
three characters are cut at the end. Whatever `std::to_string` does, parsing the text gives another equation. -/
theorem C12_printing_garbled (toStr : Rat → Str) :
    toText toStr [("H2O".toList, -1), ("H+".toList, 1), ("OH-".toList, 1)] = "H2O= H+ O".toList ∧
    parseReactionEquation "H2O= H+ O".toList = .ok [("H2O".toList, -1), ("H+".toList, 1), ("O".toList, 1)] := by
  constructor
  · have e1 : ((-1 : Rat) < 0) = True := by norm_num
    have e2 : ((1 : Rat) < 0) = False := by norm_num
    have e3 : ((0 : Rat) < -1) = False := by norm_num
    have e4 : ((0 : Rat) < 1) = True := by norm_num
    simp [toText, List.filter, e1, e2, e3, e4, dropLast3]
  · decide +kernel

end Verif.ReactionEquation
