import Verif.Theorems.AqueousParams

/-!
# C101: parameters that a user gives to single species
-/

namespace Verif.AqueousParams

open Lists

/-- Two formulas are of the same substance. -/
def SameSubstance (f g : Formula) : Prop := SameComposition f.elements g.elements ∧ f.charge = g.charge

theorem get_assign_same (f g : Formula) (hf : f.symbols.Nodup) (k : Str) (v d : Rat) (hk : Formula.ofString k = .ok g) (hs : SameSubstance f g) :
    ∀ m : List (Str × Rat), (∀ q ∈ m, q.1 ≠ k → ∃ h, Formula.ofString q.1 = .ok h ∧ ¬ SameSubstance f h) → get f (assign k v m) d = .ok v := by
  have he : f.equivalent g = true := (C98_formulas_partial f g hf (ofString_nodup _ _ hk)).2 hs
  intro m
  induction m with
  | nil => intro _; simp [assign, get, hk, Res.bind_ok', he]
  | cons q m ih =>
    obtain ⟨a, b⟩ := q
    intro hm
    by_cases h1 : a = k
    · simp [assign, h1, get, hk, Res.bind_ok', he]
    · by_cases h2 : before k a = true
      · simp [assign, h1, h2, get, hk, Res.bind_ok', he]
      · obtain ⟨h, hh, hn⟩ := hm (a, b) (by simp) h1
        have hne : ¬ f.equivalent h = true := fun e => hn ((C98_formulas_partial f h hf (ofString_nodup _ _ hh)).1 e)
        simp only [assign, h1, h2, if_false, get, Bool.false_eq_true]
        simp only at hh
        rw [hh, Res.bind_ok', if_neg hne]
        exact ih fun q hq => hm q (by simp [hq])

theorem get_assign_other (f g : Formula) (hf : f.symbols.Nodup) (k : Str) (v d : Rat) (hk : Formula.ofString k = .ok g) (hs : ¬ SameSubstance f g) :
    ∀ m : List (Str × Rat), get f (assign k v m) d = get f m d := by
  have he : ¬ f.equivalent g = true := fun e => hs ((C98_formulas_partial f g hf (ofString_nodup _ _ hk)).1 e)
  intro m
  induction m with
  | nil => simp [assign, get, hk, Res.bind_ok', he]
  | cons q m ih =>
    obtain ⟨a, b⟩ := q
    by_cases h1 : a = k
    · subst h1
      simp [assign, get, hk, Res.bind_ok', he]
    · by_cases h2 : before k a = true
      · simp [assign, h1, h2, get, hk, Res.bind_ok', he]
      · simp [assign, h1, h2, get, ih]

/-- The look-ups after an assignment: `v` for the substance of the key, if no other key of the map is a name of it, and the former value for all others. -/
def Assigned (m : List (Str × Rat)) (k : Str) (v : Rat) (g f : Formula) (former now : Res Rat) : Prop :=
  (SameSubstance f g → (∀ q ∈ m, q.1 ≠ k → ∃ h, Formula.ofString q.1 = .ok h ∧ ¬ SameSubstance f h) → now = .ok v) ∧ (¬ SameSubstance f g → now = former)

/-- **C101**, parameters of single species: after any history of setters and assignments, an assignment `aions[k] = v`, `bions[k] = v` or `bneutrals[k] = v`
gives `v` to the substance with the formula `k`, however its formula is written there, provided that the map has no other key for it; it changes nothing for
other substances and nothing in the two other maps. -/
theorem C101_assigned_partial (ops : List Op) (k : Str) (v : Rat) (g : Formula) (hk : Formula.ofString k = .ok g) (f : Formula) (hf : f.symbols.Nodup) :
    let p : Params := ops.foldl Params.run {}
    let run := fun o => (ops ++ [o]).foldl Params.run {}
    (Assigned p.aions k v g f (p.aion f) ((run (.aion k v)).aion f) ∧ (run (.aion k v)).bion f = p.bion f ∧ (run (.aion k v)).bneutral f = p.bneutral f) ∧
    (Assigned p.bions k v g f (p.bion f) ((run (.bion k v)).bion f) ∧ (run (.bion k v)).aion f = p.aion f ∧ (run (.bion k v)).bneutral f = p.bneutral f) ∧
    (Assigned p.bneutrals k v g f (p.bneutral f) ((run (.bneutral k v)).bneutral f) ∧ (run (.bneutral k v)).aion f = p.aion f ∧
      (run (.bneutral k v)).bion f = p.bion f) := by
  simp only [List.foldl_append, List.foldl_cons, List.foldl_nil]
  exact ⟨⟨⟨fun hs hm => get_assign_same f g hf k v _ hk hs _ hm, fun hs => get_assign_other f g hf k v _ hk hs _⟩, rfl, rfl⟩,
    ⟨⟨fun hs hm => get_assign_same f g hf k v _ hk hs _ hm, fun hs => get_assign_other f g hf k v _ hk hs _⟩, rfl, rfl⟩,
    ⟨⟨fun hs hm => get_assign_same f g hf k v _ hk hs _ hm, fun hs => get_assign_other f g hf k v _ hk hs _⟩, rfl, rfl⟩⟩

-- a size for lanthanum in the tables of WATEQ4F, which do not have it: all the hypotheses hold, and calcium keeps its size
example : ∃ g f : Formula, Formula.ofString c!"La+++" = .ok g ∧ Formula.ofString c!"La+3" = .ok f ∧ f.symbols.Nodup ∧ SameSubstance f g ∧
    (∀ q ∈ (([.setWATEQ4F] : List Op).foldl Params.run {}).aions, ∃ h, Formula.ofString q.1 = .ok h ∧ ¬ SameSubstance f h) ∧
    (([.setWATEQ4F, .aion c!"La+++" 9] : List Op).foldl Params.run {}).aion f = .ok 9 :=
  ⟨⟨c!"La+++", [(c!"La", 1)], 3⟩, ⟨c!"La+3", [(c!"La", 1)], 3⟩, by decide +kernel, by decide +kernel, by decide, ⟨fun _ _ => Iff.rfl, rfl⟩,
    (fun q hq => by
      have h : ∀ q ∈ (([.setWATEQ4F] : List Op).foldl Params.run {}).aions,
          (match Formula.ofString q.1 with | .ok h => decide (h.charge ≠ 3) | _ => false) = true := by decide +kernel
      specialize h q hq
      split at h
      · rename_i f hf
        exact ⟨f, hf, fun hs => of_decide_eq_true h hs.2.symm⟩
      · exact absurd h (by simp)), by decide +kernel⟩

/-- **C101 needs the spelling of the table.** After `setPHREEQC`, whose table has the keys `Na+` and `Ca++`, the assignments `aions["Na+1"] = 5` and
`aions["Ca+2"] = 8` have no effect at all, though these keys are formulas of the same ions: the sizes of the table, 4.08 and 5, are found first. -/
theorem C101_assigned_wrong : ∃ na ca : Formula, Formula.ofString c!"Na+1" = .ok na ∧ Formula.ofString c!"Ca+2" = .ok ca ∧
    (let p : Params := [Op.setPHREEQC, .aion c!"Na+1" 5, .aion c!"Ca+2" 8].foldl Params.run {}; p.aion na = .ok (408 / 100) ∧ p.aion ca = .ok 5) ∧
    (let p : Params := [Op.setPHREEQC, .aion c!"Na+" 5, .aion c!"Ca++" 8].foldl Params.run {}; p.aion na = .ok 5 ∧ p.aion ca = .ok 8) :=
  ⟨⟨c!"Na+1", [(c!"Na", 1)], 1⟩, ⟨c!"Ca+2", [(c!"Ca", 1)], 2⟩, by decide +kernel, by decide +kernel, by decide +kernel, by decide +kernel⟩

end Verif.AqueousParams
