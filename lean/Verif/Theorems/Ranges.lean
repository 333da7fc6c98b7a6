import Verif.Theorems.Lists
import Verif.Theorems.MineralMechanism
import Verif.Theorems.ModelsYAML

/-!
# C98: ranges of floating-point numbers; C85: setting the catalysts; C73: chains of reaction models
-/

namespace Verif.Lists

theorem rangeLoopRat_getElem (first step : Rat) (n i k : Nat) :
    (rangeLoopRat first step i n)[k]? = if k < n then some (first + (i + k : Nat) * step) else none := by
  induction n generalizing i k with
  | zero => simp [rangeLoopRat]
  | succ n ih =>
    cases k with
    | zero => simp [rangeLoopRat]
    | succ k =>
      simp only [rangeLoopRat, List.getElem?_cons_succ, ih]
      by_cases h : k < n
      · simp only [h, if_true, Nat.add_lt_add_iff_right]
        congr 3
        push_cast
        ring
      · simp [h]

/-- **C98**, ranges of floating-point numbers with a positive step: `first` and the numbers `first + k step` that are not above `last - 1`, in order. So none is
missing exactly if no number of the sequence after the first lies between `last - 1` and `last`; and the conversion to a size is undefined if `last` is above `first` by
`1 - step` or less. -/
theorem C98_range_numbers_partial (first last step : Rat) (hs : 0 < step) (h : first < last) :
    (last - first ≤ 1 - step → rangeRat first last step = .ub) ∧
    (1 - step < last - first → ∃ l, rangeRat first last step = .ok l ∧
      ∀ k : Nat, l[k]? = if k = 0 ∨ first + k * step ≤ last - 1 then some (first + k * step) else none) := by
  unfold rangeRat
  rw [if_neg (not_le.2 h)]
  dsimp only
  have h1 : (last - first - 1) / step ≤ -1 ↔ last - first ≤ 1 - step := by
    rw [div_le_iff₀ hs]
    constructor <;> intro <;> linarith
  refine ⟨fun hu => by rw [if_pos (h1.2 hu)], fun hu => ?_⟩
  rw [if_neg (fun hh => absurd (h1.1 hh) (not_le.2 hu))]
  refine ⟨_, rfl, fun k => ?_⟩
  rw [rangeLoopRat_getElem, zero_add]
  have hiff : k < (if (last - first - 1) / step < 0 then 0 else ((last - first - 1) / step).floor.toNat) + 1 ↔ k = 0 ∨ first + k * step ≤ last - 1 := by
    have hle : first + k * step ≤ last - 1 ↔ (k : Rat) ≤ (last - first - 1) / step := by
      rw [le_div_iff₀ hs]
      constructor <;> intro <;> linarith
    by_cases hq : (last - first - 1) / step < 0
    · rw [if_pos hq, hle]
      constructor
      · intro hk; exact .inl (by omega)
      · rintro (hk | hk)
        · omega
        · have : (0 : Rat) ≤ k := by positivity
          linarith
    · rw [if_neg hq, hle]
      have hf : (0 : Int) ≤ ((last - first - 1) / step).floor := Rat.le_floor_iff.2 (by simpa using not_lt.1 hq)
      have hk : (k : Rat) ≤ (last - first - 1) / step ↔ (k : Int) ≤ ((last - first - 1) / step).floor := by
        rw [Rat.le_floor_iff]; simp
      rw [hk]
      omega
  by_cases hk : k = 0 ∨ first + k * step ≤ last - 1
  · rw [if_pos (hiff.2 hk), if_pos hk]
  · rw [if_neg (mt hiff.1 hk), if_neg hk]

example : rangeRat 0 3 1 = .ok [0, 1, 2] ∧ rangeRat 0 (1 / 4) (1 / 2) = .ub := by decide +kernel

end Verif.Lists

namespace Verif.Mineral

open Verif.Strings

/-- **C85**, setting the catalysts: with a text that names one catalyst the mechanism has this one and no other, whatever it had before, and all else stays. -/
theorem C85_setCatalysts_partial (m : Mechanism) (o v qty sp : Str) (hq : qty ∈ quantityNames) (hs : sp ≠ [])
    (hb : '[' ∉ sp ∧ ']' ∉ sp) (hw : Fields c!"= " o [qty ++ c!"[" ++ sp ++ c!"]", v]) :
    (m.setCatalysts o).2 = .ok () ∧ (m.setCatalysts o).1.catalysts = [⟨sp, qty, Numbers.atof v⟩] ∧ (m.setCatalysts o).1.kappa = m.kappa ∧
      (m.setCatalysts o).1.Ea = m.Ea ∧ (m.setCatalysts o).1.p = m.p ∧ (m.setCatalysts o).1.q = m.q := by
  have h := (C85_catalyst o v qty sp hq hs hb hw).1
  simp [Mechanism.setCatalysts, h]

/-- The hypotheses hold for a text of the documentation. -/
example : c!"a" ∈ quantityNames ∧ Fields c!"= " c!"a[H+]=1.0" [c!"a" ++ c!"[" ++ c!"H+" ++ c!"]", c!"1.0"] :=
  ⟨by decide, (C08_split_fields _ _ _).1 (by decide +kernel)⟩

end Verif.Mineral

namespace Verif.ModelsYAML

open ReactionThermo (RxnProps)

theorem evalAll_eq (models : List RxnModel) (props : RxnProps) (T P dV0 : ℝ) :
    evalAll models props T P dV0 = models.foldl (fun r m => m.eval r T P dV0) props := by
  induction models generalizing props with
  | nil => simp [evalAll]
  | cons m ms ih => simp [evalAll, ih]

/-- A model that gives the equilibrium constant of a reaction. -/
def IsConstant : RxnModel → Prop
  | .constLgK _ => True
  | .gemsLgK _ => True
  | .phreeqcLgK _ => True
  | .vantHoff _ => True
  | .pressureCorrection _ => False
  | .chain _ => False

/-- **C52 (chains).** In a chain of reaction models, what stands before the last model of the equilibrium constant has no effect, not even the properties that were
given; each pressure correction after it adds its `(P - Pr) ΔV` to the Gibbs energy and the enthalpy. -/
theorem C52_chain (before : List RxnModel) (m : RxnModel) (hm : IsConstant m) (Prs : List ℝ) (given zero : RxnProps) (T P dV0 : ℝ) :
    let r := (RxnModel.chain (before ++ m :: Prs.map .pressureCorrection)).eval given T P dV0
    r.dG0 = (m.eval zero T P dV0).dG0 + (Prs.map fun Pr => (P - Pr) * dV0).sum ∧
      r.dH0 = (m.eval zero T P dV0).dH0 + (Prs.map fun Pr => (P - Pr) * dV0).sum := by
  have hz : ∀ q, m.eval q T P dV0 = m.eval zero T P dV0 := by
    intro q
    cases m with
    | pressureCorrection => exact hm.elim
    | chain => exact hm.elim
    | _ => simp [RxnModel.eval, ReactionThermo.constLgK, ReactionThermo.gemsLgK, ReactionThermo.phreeqcLgK, ReactionThermo.vantHoff]
  have key : ∀ (l : List ℝ) (q : RxnProps), (l.map RxnModel.pressureCorrection).foldl (fun r m => m.eval r T P dV0) q =
      ⟨q.dG0 + (l.map fun Pr => (P - Pr) * dV0).sum, q.dH0 + (l.map fun Pr => (P - Pr) * dV0).sum⟩ := by
    intro l
    induction l with
    | nil => intro q; simp
    | cons a l ih =>
      intro q
      rw [List.map_cons, List.foldl_cons, ih]
      simp only [RxnModel.eval, ReactionThermo.pressureCorrection, List.map_cons, List.sum_cons]
      congr 1 <;> ring
  dsimp only
  rw [RxnModel.eval, evalAll_eq, List.foldl_append, List.foldl_cons, hz, key]
  exact ⟨rfl, rfl⟩

/-- A chain of two models of the equilibrium constant and a pressure correction. -/
example (T P dV0 : ℝ) : ((RxnModel.chain ([.constLgK ⟨5, 0⟩] ++ .constLgK ⟨0, 0⟩ :: [(1 : ℝ)].map .pressureCorrection)).eval ⟨7, 7⟩ T P dV0).dH0 =
    dV0 * (P - 0) + ((P - 1) * dV0 + 0) := (C52_chain [.constLgK ⟨5, 0⟩] (.constLgK ⟨0, 0⟩) trivial [1] ⟨7, 7⟩ ⟨0, 0⟩ T P dV0).2

end Verif.ModelsYAML
