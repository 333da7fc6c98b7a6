import Verif.Theorems.EquilibriumSpecs

/-!
# Names of the control variables (C35)
-/

namespace Verif.EquilibriumSpecs

variable {K Pr : Type}

theorem equivalent_refl (f : Formula) : f.equivalent f = true := by
  unfold Formula.equivalent
  simp

theorem titrantName_inj {f g : Formula} (h : titrantName f = titrantName g) : f.str = g.str := by
  unfold titrantName at h
  rw [List.append_assoc, List.append_assoc] at h
  exact List.append_cancel_right (List.append_cancel_left h)

/-- **C35 (names of control variables).** The control variables are called `T`, `P` and, in the order of the titrants, by the formula of the titrant in square
brackets; if titrants with the same text are the same formula, as they are when made from texts, no name occurs twice. -/
theorem C35_names (parse : Str → Option Formula) (db : List Species) (calls : List (Call K Pr))
    (h : ∀ f ∈ (run parse db calls).titrantsExplicit ++ (run parse db calls).titrantsImplicit, (f.elements.map (·.1)).Nodup)
    (ht : ∀ f ∈ (run parse db calls).titrantsExplicit ++ (run parse db calls).titrantsImplicit,
      ∀ g ∈ (run parse db calls).titrantsExplicit ++ (run parse db calls).titrantsImplicit, f.str = g.str → f = g) :
    let s := run parse db calls
    namesControlVariables s = (if s.unknownT then [['T']] else []) ++ (if s.unknownP then [['P']] else []) ++
      (s.titrantsExplicit ++ s.titrantsImplicit).map (fun f => '[' :: (f.str ++ [']'])) ∧ (namesControlVariables s).Nodup := by
  have hp := C35_titrants parse db calls h
  intro s
  have e : namesControlVariables s = (if s.unknownT then [['T']] else []) ++ (if s.unknownP then [['P']] else []) ++
      (s.titrantsExplicit ++ s.titrantsImplicit).map (fun f => '[' :: (f.str ++ [']'])) := by
    unfold namesControlVariables namesControlVariablesP namesControlVariablesQ
    rw [List.map_append, List.append_assoc _ (List.map _ _) (List.map _ _)]
    rfl
  refine ⟨e, ?_⟩
  have hn : ((s.titrantsExplicit ++ s.titrantsImplicit).map (fun f => '[' :: (f.str ++ [']']))).Nodup := by
    unfold List.Nodup
    rw [List.pairwise_map]
    refine hp.imp_of_mem ?_
    intro f g hf hg hfg hname
    have hstr : f.str = g.str := titrantName_inj hname
    obtain rfl := ht f hf g hg hstr
    rw [equivalent_refl] at hfg
    exact absurd hfg.1 (by simp)
  have hT : ['T'] ∉ (s.titrantsExplicit ++ s.titrantsImplicit).map (fun f => '[' :: (f.str ++ [']'])) := by simp
  have hP : ['P'] ∉ (s.titrantsExplicit ++ s.titrantsImplicit).map (fun f => '[' :: (f.str ++ [']'])) := by simp
  rw [e]
  cases s.unknownT <;> cases s.unknownP
  · simpa using hn
  · exact List.nodup_cons.2 ⟨hP, hn⟩
  · exact List.nodup_cons.2 ⟨hT, hn⟩
  · refine List.nodup_cons.2 ⟨fun hm => ?_, List.nodup_cons.2 ⟨hP, hn⟩⟩
    rcases List.mem_cons.1 hm with hm | hm
    · exact absurd hm (by decide)
    · exact hT hm

example : let s := run (K := Rat) (Pr := Unit) (fun _ => none) [] [.temperature, .openTo ⟨c!"CO2", [(c!"C", 1), (c!"O", 2)], 0⟩, .openTo ⟨c!"H+", [(c!"H", 1)], 1⟩]
    (∀ f ∈ s.titrantsExplicit ++ s.titrantsImplicit, (f.elements.map (·.1)).Nodup) ∧
    (∀ f ∈ s.titrantsExplicit ++ s.titrantsImplicit, ∀ g ∈ s.titrantsExplicit ++ s.titrantsImplicit, f.str = g.str → f = g) ∧
    namesControlVariables s = [c!"P", c!"[CO2]", c!"[H+]"] := by
  decide +kernel

/-- Without the condition on the texts two control variables can have one name: formulas with the same text and given elements. -/
theorem C35_names_wrong : ∃ (calls : List (Call Rat Unit)), (∀ f ∈ (run (fun _ => none) [] calls).titrantsExplicit, (f.elements.map (·.1)).Nodup) ∧
    ¬ (namesControlVariables (run (fun _ => none) [] calls)).Nodup := by
  refine ⟨[.openTo ⟨c!"X", [(c!"H", 1)], 0⟩, .openTo ⟨c!"X", [(c!"O", 1)], 0⟩], ?_, ?_⟩ <;> decide +kernel

end Verif.EquilibriumSpecs
