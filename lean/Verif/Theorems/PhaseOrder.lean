import Verif.Spec.PhaseOrder
import Verif.Theorems.Imposed
import Verif.Theorems.ChemicalProps
import Verif.Theorems.ChemicalSystem

/-!
# C111: the order in which phases are given does not matter
-/

namespace Verif.PhaseOrder

open ChemicalProps IdealEquilibrium
open ArraySerialization (Props)

section Blocks

variable {K β : Type}

/-- A list with the same image as a permutation. -/
theorem perm_of_map {α : Type} (f : β → α) {l m : List α} (h : l.Perm m) : ∀ L : List β, L.map f = l → ∃ M : List β, L.Perm M ∧ M.map f = m := by
  induction h with
  | nil => intro L hL; exact ⟨L, .refl _, hL⟩
  | cons a _ ih =>
    intro L hL
    match L, hL with
    | b :: L, hL =>
      simp only [List.map_cons, List.cons.injEq] at hL
      obtain ⟨M, h1, h2⟩ := ih L hL.2
      exact ⟨b :: M, h1.cons _, by simp [hL.1, h2]⟩
  | swap a b l =>
    intro L hL
    match L, hL with
    | x :: y :: L, hL =>
      simp only [List.map_cons, List.cons.injEq] at hL
      exact ⟨y :: x :: L, .swap _ _ _, by simp [hL.1, hL.2.1, hL.2.2]⟩
  | trans _ _ ih1 ih2 =>
    intro L hL
    obtain ⟨M, h1, h2⟩ := ih1 L hL
    obtain ⟨N, h3, h4⟩ := ih2 M h2
    exact ⟨N, h1.trans h3, h4⟩

/-- The blocks of an array. -/
theorem seg_block (φ : β → PhaseModel K) (f : β → List K) : ∀ (L : List β), (∀ t ∈ L, (f t).length = (φ t).size) → ∀ (j : Nat) (t : β), L[j]? = some t →
    seg (L.flatMap f) (before (L.map φ) j) (sizeAt (L.map φ) j) = f t := by
  intro L
  induction L with
  | nil => intro _ j t h; simp at h
  | cons x L ih =>
    intro h j t hj
    have hx := h x List.mem_cons_self
    match j with
    | 0 =>
      simp only [List.getElem?_cons_zero, Option.some.injEq] at hj
      subst hj
      simp [seg, before, sizeAt, ← hx]
    | j + 1 =>
      have hj : L[j]? = some t := by simpa using hj
      rw [← ih (fun t ht => h t (List.mem_cons_of_mem _ ht)) j t hj]
      have e1 : before (List.map φ (x :: L)) (j + 1) = (f x).length + before (L.map φ) j := by simp [before, hx]
      have e2 : sizeAt (List.map φ (x :: L)) (j + 1) = sizeAt (L.map φ) j := by simp [sizeAt]
      rw [e1, e2]
      simp only [seg, List.flatMap_cons]
      rw [List.drop_append, List.drop_eq_nil_of_le (by omega), List.nil_append, Nat.add_sub_cancel_left]

theorem flatMap_count (φ : β → PhaseModel K) (f : β → List K) (L : List β) (h : ∀ t ∈ L, (f t).length = (φ t).size) :
    (L.flatMap f).length = count (L.map φ) := by
  induction L with
  | nil => rfl
  | cons x L ih =>
    have := ih (fun t ht => h t (List.mem_cons_of_mem _ ht))
    simp only [List.flatMap_cons, List.length_append, this, count, List.map_cons, List.sum_cons, h x List.mem_cons_self]

/-- The properties with the given data of phases. -/
def gather (T P : K) (g : β → PhaseData K) (L : List β) : Props K where
  T := T
  P := P
  Ts := L.map fun t => (g t).T
  Ps := L.map fun t => (g t).P
  n := L.flatMap fun t => (g t).n
  nsum := L.map fun t => (g t).nsum
  x := L.flatMap fun t => (g t).x
  G0 := L.flatMap fun t => (g t).G0
  H0 := L.flatMap fun t => (g t).H0
  V0 := L.flatMap fun t => (g t).V0
  Cp0 := L.flatMap fun t => (g t).Cp0
  Cv0 := L.flatMap fun t => (g t).Cv0
  Vex := L.map fun t => (g t).Vex
  VexT := L.map fun t => (g t).VexT
  VexP := L.map fun t => (g t).VexP
  Gex := L.map fun t => (g t).Gex
  Hex := L.map fun t => (g t).Hex
  Cpex := L.map fun t => (g t).Cpex
  Cvex := L.map fun t => (g t).Cvex
  ln_g := L.flatMap fun t => (g t).ln_g
  ln_a := L.flatMap fun t => (g t).ln_a
  u := L.flatMap fun t => (g t).u

theorem gather_shape (T P : K) (g : β → PhaseData K) (φ : β → PhaseModel K) (L : List β) (h : ∀ t ∈ L, Sized (φ t).size (g t)) :
    Shape (L.map φ) (gather T P g L) := by
  constructor
  · simp [gather]
  · simp only [List.mem_cons, List.not_mem_nil, or_false, forall_eq_or_imp, forall_eq, gather]
    refine ⟨?_, ?_, ?_, ?_, ?_, ?_, ?_, ?_, ?_, ?_⟩ <;> apply flatMap_count <;> intro t ht <;> cases h t ht <;> assumption

theorem gather_view [Zero K] (T P : K) (g : β → PhaseData K) (φ : β → PhaseModel K) (L : List β) (h : ∀ t ∈ L, Sized (φ t).size (g t)) (j : Nat) (t : β)
    (hj : L[j]? = some t) : view (L.map φ) (gather T P g L) j = g t := by
  have key : ∀ f : PhaseData K → List K, (∀ t ∈ L, (f (g t)).length = (φ t).size) →
      seg (L.flatMap fun t => f (g t)) (before (L.map φ) j) (sizeAt (L.map φ) j) = f (g t) := by
    intro f hf
    exact seg_block φ (fun t => f (g t)) L hf j t hj
  have one : ∀ f : PhaseData K → K, (L.map fun t => f (g t)).getD j 0 = f (g t) := by
    intro f
    rw [List.getD_eq_getElem?_getD, List.getElem?_map, hj]
    rfl
  simp only [view, gather]
  rw [one (·.T), one (·.P), one (·.nsum), one (·.Vex), one (·.VexT), one (·.VexP), one (·.Gex), one (·.Hex), one (·.Cpex), one (·.Cvex),
    key (·.n) (fun t ht => (h t ht).n), key (·.x) (fun t ht => (h t ht).x), key (·.G0) (fun t ht => (h t ht).G0), key (·.H0) (fun t ht => (h t ht).H0),
    key (·.V0) (fun t ht => (h t ht).V0), key (·.Cp0) (fun t ht => (h t ht).Cp0), key (·.Cv0) (fun t ht => (h t ht).Cv0),
    key (·.ln_g) (fun t ht => (h t ht).ln_g), key (·.ln_a) (fun t ht => (h t ht).ln_a), key (·.u) (fun t ht => (h t ht).u)]

end Blocks

section Update

variable {K β : Type} [Field K] [LinearOrder K]

/-- What an update that returned normally did with each phase. -/
theorem update_parts (R : K) (useIdeal : Bool) (T P : K) (φ : β → PhaseModel K) (f : β → List K) (L : List β) (hm : ModelsOk (L.map φ))
    (hf : ∀ t ∈ L, (f t).length = (φ t).size) (old p : Props K) (hs : Shape (L.map φ) old)
    (h : update R (L.map φ) useIdeal old T P (L.flatMap f) = .ok (p, true)) :
    p.T = T ∧ p.P = P ∧ Shape (L.map φ) p ∧ ∀ j t, L[j]? = some t → Sized (φ t).size (view (L.map φ) old j) ∧
      phaseUpdate R (φ t) useIdeal T P (f t) (view (L.map φ) old j) = (view (L.map φ) p j, true) := by
  have hs1 : Shape (L.map φ) { old with T := T, P := P } := ⟨hs.perPhase, hs.perSpecies⟩
  obtain ⟨a1, a2, a3, k, -, a5, a6, -, a8⟩ := updateLoop_spec R (L.map φ) hm useIdeal T P (L.flatMap f) [] (L.map φ) rfl _ hs1 p true h
  have hk := a6.1 rfl
  refine ⟨a2, a3, a1, ?_⟩
  intro j t hj
  have hlt : j < (L.map φ).length := by rw [List.length_map]; exact (List.getElem?_eq_some_iff.1 hj).1
  obtain ⟨-, b2, b3⟩ := a8 j hlt (Nat.zero_le _) (by omega)
  have e : (L.map φ)[j] = φ t := by
    rw [List.getElem_map]; congr 1; exact (List.getElem?_eq_some_iff.1 hj).2
  have es : sizeAt (L.map φ) j = (φ t).size := by rw [sizeAt_of_lt _ _ hlt, e]
  have hb := seg_block φ f L hf j t hj
  rw [es] at hb
  rw [e, hb] at b2 b3
  have hv := view_sized (L.map φ) old hs j hlt
  rw [es] at hv
  refine ⟨hv, ?_⟩
  have e0 : view (L.map φ) { old with T := T, P := P } j = view (L.map φ) old j := rfl
  rw [e0] at b2 b3
  rw [Prod.ext_iff]
  exact ⟨b2.symm, b3.2 (by omega)⟩

/-- An update returns normally if it does for each phase. -/
theorem update_of_parts (R : K) (useIdeal : Bool) (T P : K) (φ : β → PhaseModel K) (f : β → List K) (old new : β → PhaseData K) (L : List β) (hm : ModelsOk (L.map φ))
    (hf : ∀ t ∈ L, (f t).length = (φ t).size) (h : ∀ t ∈ L, Sized (φ t).size (old t) ∧ phaseUpdate R (φ t) useIdeal T P (f t) (old t) = (new t, true)) :
    ∃ p p1, Shape (L.map φ) p ∧ (∀ j t, L[j]? = some t → view (L.map φ) p j = old t) ∧ update R (L.map φ) useIdeal p T P (L.flatMap f) = .ok (p1, true) ∧
      ∀ j t, L[j]? = some t → view (L.map φ) p1 j = new t := by
  have hs := gather_shape T P old φ L (fun t ht => (h t ht).1)
  obtain ⟨⟨p1, ok⟩, hu⟩ := C32_defined R (L.map φ) useIdeal (gather T P old L) T P (L.flatMap f) (flatMap_count φ f L hf)
  obtain ⟨a1, a2, a3, k, -, a5, a6, -, a8⟩ := updateLoop_spec R (L.map φ) hm useIdeal T P (L.flatMap f) [] (L.map φ) rfl _ hs p1 ok hu
  have step : ∀ j t, L[j]? = some t → j ≤ k → view (L.map φ) p1 j = new t ∧ j < k := by
    intro j t hj hjk
    have hlt : j < (L.map φ).length := by rw [List.length_map]; exact (List.getElem?_eq_some_iff.1 hj).1
    obtain ⟨-, b2, b3⟩ := a8 j hlt (Nat.zero_le _) hjk
    have e : (L.map φ)[j] = φ t := by
      rw [List.getElem_map]; congr 1; exact (List.getElem?_eq_some_iff.1 hj).2
    have es : sizeAt (L.map φ) j = (φ t).size := by rw [sizeAt_of_lt _ _ hlt, e]
    have hb := seg_block φ f L hf j t hj
    rw [es] at hb
    have ht : t ∈ L := List.mem_of_getElem? hj
    rw [e, hb, gather_view T P old φ L (fun t ht => (h t ht).1) j t hj, (h t ht).2] at b2 b3
    exact ⟨b2, b3.1 rfl⟩
  have hk : k = (L.map φ).length := by
    by_contra hne
    have hlt : k < L.length := by rw [List.length_map] at a5 hne; omega
    have := (step k _ (List.getElem?_eq_getElem hlt) (Nat.le_refl _)).2
    omega
  obtain rfl := a6.2 hk
  refine ⟨_, p1, hs, gather_view T P old φ L (fun t ht => (h t ht).1), hu, ?_⟩
  intro j t hj
  have : j < L.length := (List.getElem?_eq_some_iff.1 hj).1
  exact (step j t hj (by rw [hk, List.length_map]; omega)).1

theorem stored_eq (φ : β → PhaseModel K) (new : β → PhaseData K) (L : List β) (p : Props K) (h : ∀ j t, L[j]? = some t → view (L.map φ) p j = new t) :
    stored (L.map φ) p = L.map fun t => (φ t, new t) := by
  unfold stored
  apply List.ext_getElem?
  intro j
  rw [List.getElem?_map, List.getElem?_zipIdx, List.getElem?_map, List.getElem?_map]
  cases hj : L[j]? with
  | none => rfl
  | some t => simp [h j t hj]

theorem total_stored (phases : List (PhaseModel K)) (p : Props K) (f : PhaseData K → K) :
    total phases p f = ((stored phases p).map fun x => f x.2).sum := by
  unfold total stored
  rw [List.sum_eq_foldl, List.map_map]
  congr 1
  apply List.ext_getElem?
  intro j
  rw [List.getElem?_map, List.getElem?_map, List.getElem?_zipIdx]
  by_cases hj : j < phases.length
  · rw [List.getElem?_range hj, List.getElem?_eq_getElem hj]
    simp
  · rw [List.getElem?_eq_none (by simpa using hj), List.getElem?_eq_none (by simpa using hj)]
    rfl

/-- The phases with their data before and after an update. -/
theorem update_triples (R : K) (useIdeal : Bool) (T P : K) (φ : β → PhaseModel K) (f : β → List K) (phases : List β)
    (hm : ModelsOk (phases.map φ)) (hf : ∀ ph ∈ phases, (f ph).length = (φ ph).size) (old p : Props K) (hs : Shape (phases.map φ) old)
    (h : update R (phases.map φ) useIdeal old T P (phases.flatMap f) = .ok (p, true)) :
    ∃ L : List (β × PhaseData K × PhaseData K), L.map (·.1) = phases ∧
      (∀ t ∈ L, Sized (φ t.1).size t.2.1 ∧ phaseUpdate R (φ t.1) useIdeal T P (f t.1) t.2.1 = (t.2.2, true)) ∧
      (∀ j t, L[j]? = some t → view (phases.map φ) old j = t.2.1 ∧ view (phases.map φ) p j = t.2.2) := by
  obtain ⟨-, -, -, h4⟩ := update_parts R useIdeal T P φ f phases hm hf old p hs h
  have hL : ∀ (j : Nat) (t : β × PhaseData K × PhaseData K), (phases.zipIdx.map fun x => (x.1, view (phases.map φ) old x.2, view (phases.map φ) p x.2))[j]? = some t →
      phases[j]? = some t.1 ∧ view (phases.map φ) old j = t.2.1 ∧ view (phases.map φ) p j = t.2.2 := by
    intro j t hj
    rw [List.getElem?_map, List.getElem?_zipIdx] at hj
    cases hp : phases[j]? with
    | none => rw [hp] at hj; simp at hj
    | some a =>
      rw [hp] at hj
      simp only [Option.map_some, Option.some.injEq] at hj
      subst hj
      simp
  refine ⟨_, ?_, ?_, fun j t hj => (hL j t hj).2⟩
  · rw [List.map_map]
    exact List.zipIdx_map_fst 0 phases
  · intro t ht
    obtain ⟨j, hj⟩ := List.mem_iff_getElem?.1 ht
    obtain ⟨a1, a2, a3⟩ := hL j t hj
    have := h4 j t.1 a1
    rw [a2, a3] at this
    exact this

/-- **C111 (properties).** If the phases, each with the amounts of its species and the earlier contents of its data, are given in another order, the update
stores the same data for each phase, and the sum of every property over the phases is the same. -/
theorem C111_properties (R : K) (useIdeal : Bool) (T P : K) (phases phases' : List (PhaseModel K × List K)) (hperm : phases.Perm phases')
    (hm : ModelsOk (phases.map (·.1))) (hf : ∀ ph ∈ phases, ph.2.length = ph.1.size) (old p : Props K) (hs : Shape (phases.map (·.1)) old)
    (h : update R (phases.map (·.1)) useIdeal old T P (phases.flatMap (·.2)) = .ok (p, true)) :
    ∃ old' p', Shape (phases'.map (·.1)) old' ∧ (stored (phases.map (·.1)) old).Perm (stored (phases'.map (·.1)) old') ∧
      update R (phases'.map (·.1)) useIdeal old' T P (phases'.flatMap (·.2)) = .ok (p', true) ∧
      (stored (phases.map (·.1)) p).Perm (stored (phases'.map (·.1)) p') ∧
      ∀ f : PhaseData K → K, total (phases'.map (·.1)) p' f = total (phases.map (·.1)) p f := by
  obtain ⟨L, h1, h2, h3⟩ := update_triples R useIdeal T P (·.1) (·.2) phases hm hf old p hs h
  obtain ⟨M, h4, h5⟩ := perm_of_map (·.1) hperm L h1
  have e1 : phases'.map (·.1) = M.map (·.1.1) := by rw [← h5, List.map_map]; rfl
  have e2 : phases'.flatMap (·.2) = M.flatMap (·.1.2) := by rw [← h5, List.flatMap_map]
  have e3 : phases.map (·.1) = L.map (·.1.1) := by rw [← h1, List.map_map]; rfl
  have hM : ∀ t ∈ M, t ∈ L := fun t ht => h4.mem_iff.2 ht
  have hphases : ∀ t ∈ M, t.1 ∈ phases := by
    intro t ht
    rw [← h1]
    exact List.mem_map_of_mem (hM t ht)
  obtain ⟨old', p', g1, g2, g3, g4⟩ := update_of_parts R useIdeal T P (fun t : (PhaseModel K × List K) × PhaseData K × PhaseData K => t.1.1) (·.1.2) (·.2.1) (·.2.2) M
    (by
      intro ph hph
      obtain ⟨t, ht, rfl⟩ := List.mem_map.1 hph
      exact hm _ (List.mem_map_of_mem (hphases t ht)))
    (fun t ht => hf _ (hphases t ht)) (fun t ht => h2 t (hM t ht))
  have s1 : (stored (phases.map (·.1)) old).Perm (stored (phases'.map (·.1)) old') := by
    rw [e1, stored_eq _ _ M old' g2, e3, stored_eq _ (·.2.1) L old (by rw [← e3]; exact fun j t hj => (h3 j t hj).1)]
    exact h4.map _
  have s2 : (stored (phases.map (·.1)) p).Perm (stored (phases'.map (·.1)) p') := by
    rw [e1, stored_eq _ _ M p' g4, e3, stored_eq _ (·.2.2) L p (by rw [← e3]; exact fun j t hj => (h3 j t hj).2)]
    exact h4.map _
  rw [e2]
  refine ⟨old', p', by rw [e1]; exact g1, s1, by rw [e1]; exact g3, s2, ?_⟩
  intro f
  rw [total_stored, total_stored]
  exact (s2.symm.map _).sum_eq

end Update

section Equilibria

/-- The conditions of equilibrium for a list of unknowns, each with the component of the gradient, and multipliers `y`. -/
def Good (b : List ℝ) (X : List (Unknown × ℝ)) (y : Nat → ℝ) : Prop :=
  (∀ i < b.length, (X.map fun x => ((x.1.column.getD i 0 : Rat) : ℝ) * x.1.amount).sum = b.getD i 0) ∧
  (∀ x ∈ X, ∀ v : Rat, x.1.lower = some v → (v : ℝ) ≤ x.1.amount) ∧ (∀ x ∈ X, ∀ v : Rat, x.1.upper = some v → x.1.amount ≤ (v : ℝ)) ∧
  ∀ x ∈ X,
    (0 < x.2 - ∑ i ∈ Finset.range b.length, y i * ((x.1.column.getD i 0 : Rat) : ℝ) → ∃ v : Rat, x.1.lower = some v ∧ x.1.amount = (v : ℝ)) ∧
    (x.2 - ∑ i ∈ Finset.range b.length, y i * ((x.1.column.getD i 0 : Rat) : ℝ) < 0 → ∃ v : Rat, x.1.upper = some v ∧ x.1.amount = (v : ℝ))

theorem good_perm {b : List ℝ} {X X' : List (Unknown × ℝ)} {y : Nat → ℝ} (h : X.Perm X') (hg : Good b X y) : Good b X' y := by
  obtain ⟨h1, h2, h3, h4⟩ := hg
  refine ⟨?_, fun x hx => h2 x (h.mem_iff.2 hx), fun x hx => h3 x (h.mem_iff.2 hx), fun x hx => h4 x (h.mem_iff.2 hx)⟩
  intro i hi
  rw [← h1 i hi]
  exact (h.symm.map _).sum_eq

theorem good_iff (common : Problem) (parts : List Part) (titrants : List (Unknown × ℝ)) (hsize : (amounts parts).length = count (parts.map Part.model)) (g : List ℝ)
    (X : List (Unknown × ℝ)) (h1 : X.map (·.1) = unknowns parts titrants) (h2 : X.map (·.2) = g) (y : Nat → ℝ) :
    (Feasible (problem common parts titrants) (amounts parts) (titrants.map (·.1.amount)) ∧
      ∀ j < (amounts parts).length + (titrants.map (·.1.amount)).length,
        (0 < g.getD j 0 - ∑ i ∈ Finset.range (problem common parts titrants).A.length, y i * ((((problem common parts titrants).A.getD i []).getD j 0 : Rat) : ℝ) →
          ∃ v : Rat, (problem common parts titrants).lower[j]? = some (some v) ∧ (amounts parts ++ titrants.map (·.1.amount)).getD j 0 = (v : ℝ)) ∧
        (g.getD j 0 - ∑ i ∈ Finset.range (problem common parts titrants).A.length, y i * ((((problem common parts titrants).A.getD i []).getD j 0 : Rat) : ℝ) < 0 →
          ∃ v : Rat, (problem common parts titrants).upper[j]? = some (some v) ∧ (amounts parts ++ titrants.map (·.1.amount)).getD j 0 = (v : ℝ))) ↔
    Good common.b X y := by
  have hn : amounts parts ++ titrants.map (·.1.amount) = X.map (·.1.amount) := by
    have : X.map (·.1.amount) = (X.map (·.1)).map Unknown.amount := by rw [List.map_map]; rfl
    rw [this, h1, unknowns, List.map_append, amounts, List.map_map]
    rfl
  have hlen : (amounts parts).length + (titrants.map (·.1.amount)).length = X.length := by
    rw [← List.length_append, hn, List.length_map]
  have hA : (problem common parts titrants).A.length = common.b.length := by simp [problem]
  have hcol : ∀ i < common.b.length, ∀ j x, X[j]? = some x → ((problem common parts titrants).A.getD i []).getD j 0 = x.1.column.getD i 0 := by
    intro i hi j x hj
    simp only [problem]
    rw [List.getD_eq_getElem (List.map _ _) _ (by simpa using hi), List.getElem_map, ← h1, List.map_map, List.getD_eq_getElem?_getD, List.getElem?_map, hj]
    simp
  have hamt : ∀ (j : Nat) (x : Unknown × ℝ), X[j]? = some x → (amounts parts ++ titrants.map (·.1.amount)).getD j 0 = x.1.amount := by
    intro j x hj
    rw [hn, List.getD_eq_getElem?_getD, List.getElem?_map, hj]
    rfl
  have hlow : ∀ (j : Nat) (x : Unknown × ℝ), X[j]? = some x → (problem common parts titrants).lower[j]? = some x.1.lower := by
    intro j x hj
    simp only [problem]
    rw [← h1, List.map_map, List.getElem?_map, hj]
    rfl
  have hupp : ∀ (j : Nat) (x : Unknown × ℝ), X[j]? = some x → (problem common parts titrants).upper[j]? = some x.1.upper := by
    intro j x hj
    simp only [problem]
    rw [← h1, List.map_map, List.getElem?_map, hj]
    rfl
  have hgr : ∀ (j : Nat) (x : Unknown × ℝ), X[j]? = some x → g.getD j 0 = x.2 := by
    intro j x hj
    rw [← h2, List.getD_eq_getElem?_getD, List.getElem?_map, hj]
    rfl
  have hlows : ∀ (j : Nat) (v : Rat), (problem common parts titrants).lower[j]? = some (some v) → ∃ x, X[j]? = some x := by
    intro j v hj
    have : j < X.length := by
      have := (List.getElem?_eq_some_iff.1 hj).1
      simp only [problem, ← h1, List.length_map] at this
      exact this
    exact ⟨_, List.getElem?_eq_getElem this⟩
  have hupps : ∀ (j : Nat) (v : Rat), (problem common parts titrants).upper[j]? = some (some v) → ∃ x, X[j]? = some x := by
    intro j v hj
    have : j < X.length := by
      have := (List.getElem?_eq_some_iff.1 hj).1
      simp only [problem, ← h1, List.length_map] at this
      exact this
    exact ⟨_, List.getElem?_eq_getElem this⟩
  have hbal : ∀ i < common.b.length, balance (problem common parts titrants).A (amounts parts ++ titrants.map (·.1.amount)) i =
      (X.map fun x => ((x.1.column.getD i 0 : Rat) : ℝ) * x.1.amount).sum := by
    intro i hi
    unfold balance
    rw [List.length_append, hlen, ← Fin.sum_univ_eq_sum_range (fun j => ((((problem common parts titrants).A.getD i []).getD j 0 : Rat) : ℝ) *
      (amounts parts ++ titrants.map (·.1.amount)).getD j 0) X.length]
    rw [← Fin.sum_univ_fun_getElem X (fun x => ((x.1.column.getD i 0 : Rat) : ℝ) * x.1.amount)]
    apply Finset.sum_congr rfl
    intro j _
    have hj : X[j.1]? = some X[j.1] := List.getElem?_eq_getElem j.2
    rw [hcol i hi j _ hj, hamt j _ hj]
  have hsum : ∀ (y : Nat → ℝ) (j : Nat) (x : Unknown × ℝ), X[j]? = some x → ∑ i ∈ Finset.range (problem common parts titrants).A.length, y i * ((((problem common parts titrants).A.getD i []).getD j 0 : Rat) : ℝ) =
      ∑ i ∈ Finset.range common.b.length, y i * ((x.1.column.getD i 0 : Rat) : ℝ) := by
    intro y j x hj
    rw [hA]
    apply Finset.sum_congr rfl
    intro i hi
    rw [hcol i (Finset.mem_range.1 hi) j x hj]
  constructor
  · rintro ⟨hF, hy⟩
    refine ⟨?_, ?_, ?_, ?_⟩
    · intro i hi
      rw [← hbal i hi]
      exact hF.balances i (by rw [hA]; exact hi)
    · intro x hx v hv
      obtain ⟨j, hj⟩ := List.mem_iff_getElem?.1 hx
      have := hF.lower j v (by rw [hlow j x hj, hv])
      rwa [hamt j x hj] at this
    · intro x hx v hv
      obtain ⟨j, hj⟩ := List.mem_iff_getElem?.1 hx
      have := hF.upper j v (by rw [hupp j x hj, hv])
      rwa [hamt j x hj] at this
    · intro x hx
      obtain ⟨j, hj⟩ := List.mem_iff_getElem?.1 hx
      have := hy j (by rw [hlen]; exact (List.getElem?_eq_some_iff.1 hj).1)
      simp only [hgr j x hj, hsum y j x hj, hlow j x hj, hupp j x hj, hamt j x hj, Option.some.injEq] at this
      exact this
  · rintro ⟨g1, g2, g3, g4⟩
    refine ⟨⟨hsize, by simp [problem], ?_, ?_, ?_⟩, ?_⟩
    · intro i hi
      rw [hA] at hi
      rw [hbal i hi]
      exact g1 i hi
    · intro j v hj
      obtain ⟨x, hx⟩ := hlows j v hj
      rw [hlow j x hx, Option.some.injEq] at hj
      rw [hamt j x hx]
      exact g2 x (List.mem_of_getElem? hx) v hj
    · intro j v hj
      obtain ⟨x, hx⟩ := hupps j v hj
      rw [hupp j x hx, Option.some.injEq] at hj
      rw [hamt j x hx]
      exact g3 x (List.mem_of_getElem? hx) v hj
    · intro j hj
      rw [hlen] at hj
      have hx : X[j]? = some X[j] := List.getElem?_eq_getElem hj
      simp only [hgr j _ hx, hsum y j _ hx, hlow j _ hx, hupp j _ hx, hamt j _ hx, Option.some.injEq]
      exact g4 _ (List.mem_of_getElem? hx)

/-- The unknowns with the components of the gradient. -/
noncomputable def entries (c : Problem) (L : List (Part × PhaseData ℝ × PhaseData ℝ)) (titrants : List (Unknown × ℝ)) : List (Unknown × ℝ) :=
  (L.flatMap fun t => List.zipWith (fun x u => (x, u / (c.R * c.T) - c.eps * c.factor / x.amount)) t.1.species t.2.2.u) ++
    titrants.map fun t => (t.1, t.2 / (c.R * c.T))

theorem flatMap_eq {α γ : Type} (f g : α → List γ) (L : List α) (h : ∀ t ∈ L, f t = g t) : L.flatMap f = L.flatMap g := by
  induction L with
  | nil => rfl
  | cons x L ih => rw [List.flatMap_cons, List.flatMap_cons, h x List.mem_cons_self, ih (fun t ht => h t (List.mem_cons_of_mem _ ht))]

theorem entries_fst (c : Problem) (L : List (Part × PhaseData ℝ × PhaseData ℝ)) (titrants : List (Unknown × ℝ)) (h : ∀ t ∈ L, t.2.2.u.length = t.1.species.length) :
    (entries c L titrants).map (·.1) = unknowns (L.map (·.1)) titrants := by
  unfold entries unknowns
  rw [List.map_append, List.map_map, List.map_flatMap, List.flatMap_map]
  congr 1
  apply flatMap_eq
  intro t ht
  rw [List.map_zipWith]
  apply List.ext_getElem
  · simp [h t ht]
  · intro i _ _; simp

theorem entries_snd (c : Problem) (L : List (Part × PhaseData ℝ × PhaseData ℝ)) (titrants : List (Unknown × ℝ)) (h : ∀ t ∈ L, t.2.2.u.length = t.1.species.length) :
    (entries c L titrants).map (·.2) = (problem c (L.map (·.1)) titrants).gradient (amounts (L.map (·.1))) (L.flatMap (·.2.2.u)) := by
  unfold entries Problem.gradient EquilibriumSetup.gradX EquilibriumSetup.gradN EquilibriumSetup.gradQ amounts
  rw [List.map_append, List.map_map, List.map_flatMap, List.flatMap_map, List.map_flatMap,
    ← Imposed.zipWith_flatMap (fun u n => u / ((problem c (L.map (·.1)) titrants).R * (problem c (L.map (·.1)) titrants).T) - (problem c (L.map (·.1)) titrants).eps * (problem c (L.map (·.1)) titrants).factor / n)
      (·.2.2.u) (fun t => t.1.species.map Unknown.amount) L (fun t ht => by simp [h t ht])]
  congr 1
  · apply flatMap_eq
    intro t ht
    rw [List.map_zipWith]
    apply List.ext_getElem
    · simp [h t ht]
    · intro i _ _; simp [problem]
  · simp [problem]

/-- Chemical potentials as blocks. -/
theorem potentials_blocks {φ : Part → PhaseModel ℝ} (L : List (Part × PhaseData ℝ × PhaseData ℝ)) (p : Props ℝ) (hs : Shape ((L.map (·.1)).map φ) p)
    (h : ∀ j t, L[j]? = some t → view ((L.map (·.1)).map φ) p j = t.2.2) : p.u = L.flatMap (·.2.2.u) := by
  obtain ⟨-, -, -, -, -, -, -, -, -, -, hu⟩ := C32_blocks _ p hs
  rw [hu, List.flatMap_def, List.flatMap_def]
  congr 1
  apply List.ext_getElem?
  intro j
  rw [List.getElem?_map, List.getElem?_map]
  by_cases hj : j < L.length
  · rw [List.getElem?_range (by simpa using hj), List.getElem?_eq_getElem hj]
    simp only [Option.map_some]
    rw [h j _ (List.getElem?_eq_getElem hj)]
  · rw [List.getElem?_eq_none (by simpa using hj), List.getElem?_eq_none (by simpa using hj)]
    rfl

/-- **C111 (equilibrium).** If the phases are given in another order, each with its species, their columns, bounds and amounts, an equilibrium state stays one, with the
same properties of each phase. -/
theorem C111_equilibrium (common : Problem) (parts parts' : List Part) (hperm : parts.Perm parts') (titrants : List (Unknown × ℝ))
    (hm : ModelsOk (parts.map Part.model)) (hsize : ∀ a ∈ parts, a.species.length = a.model.size) (props : Props ℝ)
    (he : Equilibrium (problem common parts titrants) (amounts parts) (titrants.map (·.1.amount)) props) :
    ∃ props', Equilibrium (problem common parts' titrants) (amounts parts') (titrants.map (·.1.amount)) props' ∧
      (stored (parts.map Part.model) props).Perm (stored (parts'.map Part.model) props') ∧
      ∀ f : PhaseData ℝ → ℝ, total (parts'.map Part.model) props' f = total (parts.map Part.model) props f := by
  obtain ⟨hF, ⟨old, hs, hu⟩, y, hy⟩ := he
  have ea : ∀ l : List Part, amounts l = l.flatMap fun a => a.species.map Unknown.amount := by
    intro l
    unfold amounts
    rw [List.map_flatMap]
  have hf : ∀ a ∈ parts, (a.species.map Unknown.amount).length = a.model.size := fun a ha => by rw [List.length_map]; exact hsize a ha
  change update common.R (parts.map Part.model) false old common.T common.P (amounts parts) = _ at hu
  rw [ea] at hu
  obtain ⟨-, -, hsp, -⟩ := update_parts _ _ _ _ _ _ parts hm hf old props hs hu
  obtain ⟨L, h1, h2, h3⟩ := update_triples _ _ _ _ _ _ parts hm hf old props hs hu
  obtain ⟨M, h4, h5⟩ := perm_of_map (·.1) hperm L h1
  have hsized : ∀ t ∈ L, t.2.2.u.length = t.1.species.length := by
    intro t ht
    have hp : t.1 ∈ parts := by rw [← h1]; exact List.mem_map_of_mem ht
    have := phaseUpdate_sized common.R t.1.model (hm _ (List.mem_map_of_mem hp)) false common.T common.P _ (hf t.1 hp) t.2.1 (h2 t ht).1
    rw [(h2 t ht).2] at this
    rw [hsize _ hp]
    exact this.u
  have hM : ∀ t ∈ M, t ∈ L := fun t ht => h4.mem_iff.2 ht
  have hphases : ∀ t ∈ M, t.1 ∈ parts := by
    intro t ht
    rw [← h1]
    exact List.mem_map_of_mem (hM t ht)
  have e1 : parts'.map Part.model = M.map (·.1.model) := by rw [← h5, List.map_map]; rfl
  have e2 : (parts'.flatMap fun a => a.species.map Unknown.amount) = M.flatMap fun t => t.1.species.map Unknown.amount := by rw [← h5, List.flatMap_map]
  have e3 : parts.map Part.model = L.map (·.1.model) := by rw [← h1, List.map_map]; rfl
  obtain ⟨old', p', g1, g2, g3, g4⟩ := update_of_parts common.R false common.T common.P (fun t : Part × PhaseData ℝ × PhaseData ℝ => t.1.model)
    (fun t => t.1.species.map Unknown.amount) (·.2.1) (·.2.2) M
    (by
      intro ph hph
      obtain ⟨t, ht, rfl⟩ := List.mem_map.1 hph
      exact hm _ (List.mem_map_of_mem (hphases t ht)))
    (fun t ht => hf _ (hphases t ht)) (fun t ht => h2 t (hM t ht))
  obtain ⟨-, -, hsp', -⟩ := update_parts _ _ _ _ (fun t : Part × PhaseData ℝ × PhaseData ℝ => t.1.model) (fun t => t.1.species.map Unknown.amount) M
    (by
      intro ph hph
      obtain ⟨t, ht, rfl⟩ := List.mem_map.1 hph
      exact hm _ (List.mem_map_of_mem (hphases t ht)))
    (fun t ht => hf _ (hphases t ht)) old' p' g1 g3
  have u1 : props.u = L.flatMap (·.2.2.u) := by
    apply potentials_blocks (φ := Part.model) L props (by rw [h1]; exact hsp)
    rw [h1]
    exact fun j t hj => (h3 j t hj).2
  have em : (M.map (·.1)).map Part.model = M.map (·.1.model) := by rw [List.map_map]; rfl
  have u2 : p'.u = M.flatMap (·.2.2.u) := by
    apply potentials_blocks (φ := Part.model) M p' (by rw [em]; exact hsp')
    rw [em]
    exact g4
  have s2 : (stored (parts.map Part.model) props).Perm (stored (parts'.map Part.model) p') := by
    rw [e1, stored_eq _ _ M p' g4, e3, stored_eq _ (·.2.2) L props (by rw [← e3]; exact fun j t hj => (h3 j t hj).2)]
    exact h4.map _
  have c1 : (amounts parts).length = count (parts.map Part.model) := by rw [ea]; exact flatMap_count _ _ _ hf
  have c2 : (amounts parts').length = count (parts'.map Part.model) := by
    rw [ea, e1, e2]
    exact flatMap_count _ _ _ (fun t ht => hf _ (hphases t ht))
  have hgood := (good_iff common parts titrants c1 _ (entries common L titrants) (by rw [entries_fst _ _ _ hsized, h1])
    (by rw [entries_snd _ _ _ hsized, h1, ← u1]) y).1 ⟨hF, hy⟩
  have hgood' := good_perm (X' := entries common M titrants) (by
    unfold entries
    exact (h4.flatMap_right _).append_right _) hgood
  have hsized' : ∀ t ∈ M, t.2.2.u.length = t.1.species.length := fun t ht => hsized t (hM t ht)
  obtain ⟨hF', hy'⟩ := (good_iff common parts' titrants c2 _ (entries common M titrants) (by rw [entries_fst _ _ _ hsized', h5])
    (by rw [entries_snd _ _ _ hsized', h5, ← u2]) y).2 hgood'
  refine ⟨p', ⟨hF', ⟨old', ?_, ?_⟩, y, hy'⟩, s2, ?_⟩
  · change Shape (parts'.map Part.model) old'
    rw [e1]; exact g1
  · change update common.R (parts'.map Part.model) false old' common.T common.P (amounts parts') = _
    rw [ea, e1, e2]; exact g3
  · intro f
    rw [total_stored, total_stored]
    exact (s2.symm.map _).sum_eq

/-- **C111 (same equilibria).** A state is an equilibrium for one order if and only if it is for the other. -/
theorem C111_same (common : Problem) (parts parts' : List Part) (hperm : parts.Perm parts') (titrants : List (Unknown × ℝ))
    (hm : ModelsOk (parts.map Part.model)) (hsize : ∀ a ∈ parts, a.species.length = a.model.size) :
    (∃ props, Equilibrium (problem common parts titrants) (amounts parts) (titrants.map (·.1.amount)) props) ↔
      ∃ props', Equilibrium (problem common parts' titrants) (amounts parts') (titrants.map (·.1.amount)) props' := by
  constructor
  · rintro ⟨props, h⟩
    obtain ⟨props', h', -⟩ := C111_equilibrium common parts parts' hperm titrants hm hsize props h
    exact ⟨props', h'⟩
  · rintro ⟨props, h⟩
    obtain ⟨props', h', -⟩ := C111_equilibrium common parts' parts hperm.symm titrants (fun ph hph => hm ph ((hperm.map _).mem_iff.2 hph))
      (fun a ha => hsize a (hperm.mem_iff.2 ha)) props h
    exact ⟨props', h'⟩

end Equilibria

section Systems

open ChemicalSystem

theorem collectSpecies_flatMap (phases : List Phases.Phase) : collectSpecies phases = phases.flatMap (·.species) := by
  have : ∀ (l : List Chem.Species), phases.foldl (fun l p => l ++ p.species) l = l ++ phases.flatMap (·.species) := by
    induction phases with
    | nil => intro l; simp
    | cons p phases ih => intro l; rw [List.foldl_cons, ih]; simp
  simpa [collectSpecies] using this []

theorem collected_perm {species species' : List Chem.Species} (h : species.Perm species') (hone : OneElement species) :
    (collectedElements species).Perm (collectedElements species') := by
  obtain ⟨a1, a2, a3⟩ := collectedElements_symbols species
  obtain ⟨b1, b2, b3⟩ := collectedElements_symbols species'
  rw [List.perm_ext_iff_of_nodup (List.Nodup.of_map _ a1) (List.Nodup.of_map _ b1)]
  intro e
  constructor
  · intro he
    obtain ⟨s, hs, p, hp, rfl⟩ := a3 e he
    obtain ⟨e', he', hsym⟩ := List.mem_map.1 ((b2 p.1.symbol).2 ⟨s, h.mem_iff.1 hs, p, hp, rfl⟩)
    obtain ⟨s', hs', p', hp', rfl⟩ := b3 e' he'
    rw [hone s hs s' (h.mem_iff.2 hs') p hp p' hp' hsym.symm]
    exact he'
  · intro he
    obtain ⟨s, hs, p, hp, rfl⟩ := b3 e he
    obtain ⟨e', he', hsym⟩ := List.mem_map.1 ((a2 p.1.symbol).2 ⟨s, h.mem_iff.2 hs, p, hp, rfl⟩)
    obtain ⟨s', hs', p', hp', rfl⟩ := a3 e' he'
    rw [hone s (h.mem_iff.2 hs) s' hs' p hp p' hp' hsym.symm]
    exact he'

/-- The columns of the matrix. -/
theorem columns_eq (species : List Chem.Species) (elements : List Chem.Element) :
    withColumns species (formulaMatrix species elements) =
      species.map fun s => (s, elements.map (fun e => Chem.coefficient s.elements e.symbol) ++ [s.charge]) := by
  unfold withColumns
  apply List.ext_getElem?
  intro j
  rw [List.getElem?_map, List.getElem?_zipIdx, List.getElem?_map]
  cases hj : species[j]? with
  | none => rfl
  | some s =>
    have hl : j < species.length := (List.getElem?_eq_some_iff.1 hj).1
    have hg : species[j] = s := (List.getElem?_eq_some_iff.1 hj).2
    simp [formulaMatrix, hl, hg]

/-- **C111 (systems).** If the phases of a system are given in another order, a system with the same elements in the same order can result, in which each species has the
same column of the formula matrix; and if no name is used twice, its species and phases are the same ones. -/
theorem C111_system (phases phases' : List Phases.Phase) (hperm : phases.Perm phases') (sys : System) (h : Constructs phases sys)
    (hone : OneElement (collectSpecies phases)) :
    ∃ sys', Constructs phases' sys' ∧ sys'.elements = sys.elements ∧
      (withColumns (collectSpecies phases) sys.formulaMatrix).Perm (withColumns (collectSpecies phases') sys'.formulaMatrix) ∧
      (((collectSpecies phases).map Chem.Species.name).Nodup → sys.species.Perm sys'.species ∧ sys.species = collectSpecies phases) ∧
      ((phases.map (·.name)).Nodup → sys.phases.Perm sys'.phases ∧ sys.phases = phases) := by
  obtain ⟨elements, ⟨hp, hsort⟩, rfl⟩ := h
  have hsp : (collectSpecies phases).Perm (collectSpecies phases') := by
    rw [collectSpecies_flatMap, collectSpecies_flatMap]
    exact hperm.flatMap_right _
  have fixS : ∀ l : List Chem.Species, (l.map Chem.Species.name).Nodup → fixSpeciesNames l = l := by
    intro l hl
    unfold fixSpeciesNames
    rw [Strings.makeunique_of_nodup _ _ hl]
    apply List.ext_getElem (by simp)
    intro i _ _
    simp
  have fixP : ∀ l : List Phases.Phase, (l.map (·.name)).Nodup → fixPhaseNames l = l := by
    intro l hl
    unfold fixPhaseNames
    rw [Strings.makeunique_of_nodup _ _ hl]
    apply List.ext_getElem (by simp)
    intro i _ _
    simp
  refine ⟨_, ⟨elements, ⟨hp.trans (collected_perm hsp hone), hsort⟩, rfl⟩, rfl, ?_, ?_, ?_⟩
  · rw [columns_eq, columns_eq]
    exact hsp.map _
  · intro hn
    dsimp only
    rw [fixS _ hn, fixS _ ((hsp.map _).nodup_iff.1 hn)]
    exact ⟨hsp, rfl⟩
  · intro hn
    dsimp only
    rw [fixP _ hn, fixP _ ((hperm.map _).nodup_iff.1 hn)]
    exact ⟨hperm, rfl⟩

end Systems

/-! ### Examples -/

section Examples

open ChemicalSystem

/-- An aqueous phase and a gas, with names of their own. -/
def twoPhases : List Phases.Phase := [⟨c!"Aq", [H2O c!"H2O(aq)" .Aqueous, OH]⟩, ⟨c!"Gas", [H2O c!"H2O(g)" .Gas]⟩]

example : ∃ sys', Constructs twoPhases.reverse sys' ∧ sys'.elements = [H, O] := by
  obtain ⟨sys', h1, h2, -⟩ := C111_system twoPhases twoPhases.reverse (List.reverse_perm _).symm
    ⟨fixPhaseNames twoPhases, fixSpeciesNames (collectSpecies twoPhases), [H, O], formulaMatrix (collectSpecies twoPhases) [H, O]⟩
    ⟨[H, O], ⟨by rw [show collectedElements (collectSpecies twoPhases) = [H, O] by decide +kernel], by simp [H, O]⟩, rfl⟩
    (by unfold OneElement; decide +kernel)
  exact ⟨sys', h1, h2⟩

/-- **C111 (names).** The condition on names is needed: if a species of another phase has the same name, the names depend on the order of the phases. -/
theorem C111_names_wrong : ∃ phases phases' : List Phases.Phase, phases.Perm phases' ∧ OneElement (collectSpecies phases) ∧
    ∀ sys sys', Constructs phases sys → Constructs phases' sys' → ¬ sys.species.Perm sys'.species := by
  refine ⟨[⟨c!"Aq", [H2O c!"H2O" .Aqueous]⟩, ⟨c!"Gas", [H2O c!"H2O" .Gas]⟩], [⟨c!"Gas", [H2O c!"H2O" .Gas]⟩, ⟨c!"Aq", [H2O c!"H2O" .Aqueous]⟩],
    .swap _ _ _, by unfold OneElement; decide +kernel, ?_⟩
  rintro sys sys' ⟨_, _, rfl⟩ ⟨_, _, rfl⟩ h
  dsimp only at h
  have : H2O c!"H2O" .Aqueous ∈ fixSpeciesNames (collectSpecies [⟨c!"Gas", [H2O c!"H2O" .Gas]⟩, ⟨c!"Aq", [H2O c!"H2O" .Aqueous]⟩]) :=
    h.mem_iff.1 (by decide +kernel)
  exact absurd this (by decide +kernel)

/-- **C111 (elements).** The condition on elements is needed: if phases have different elements with the same symbol, the first phase decides which one the system has. -/
theorem C111_elements_wrong : ∃ phases phases' : List Phases.Phase, phases.Perm phases' ∧
    ∀ sys sys', Constructs phases sys → Constructs phases' sys' → sys.elements ≠ sys'.elements := by
  refine ⟨[⟨c!"Aq", [⟨c!"A", c!"H", [(H, 1)], 0, .Aqueous, [], [], []⟩]⟩, ⟨c!"Gas", [⟨c!"B", c!"H", [({ H with molarMass := 2 }, 1)], 0, .Gas, [], [], []⟩]⟩],
    [⟨c!"Gas", [⟨c!"B", c!"H", [({ H with molarMass := 2 }, 1)], 0, .Gas, [], [], []⟩]⟩, ⟨c!"Aq", [⟨c!"A", c!"H", [(H, 1)], 0, .Aqueous, [], [], []⟩]⟩], .swap _ _ _, ?_⟩
  rintro sys sys' ⟨e, ⟨he, -⟩, rfl⟩ ⟨e', ⟨he', -⟩, rfl⟩ h
  dsimp only at h
  subst h
  have h1 := he.symm.trans he'
  rw [show collectedElements (collectSpecies [⟨c!"Aq", [⟨c!"A", c!"H", [(H, 1)], 0, .Aqueous, [], [], []⟩]⟩,
      ⟨c!"Gas", [⟨c!"B", c!"H", [({ H with molarMass := 2 }, 1)], 0, .Gas, [], [], []⟩]⟩]) = [H] by decide +kernel,
    show collectedElements (collectSpecies [⟨c!"Gas", [⟨c!"B", c!"H", [({ H with molarMass := 2 }, 1)], 0, .Gas, [], [], []⟩]⟩,
      ⟨c!"Aq", [⟨c!"A", c!"H", [(H, 1)], 0, .Aqueous, [], [], []⟩]⟩]) = [{ H with molarMass := 2 }] by decide +kernel] at h1
  exact absurd (List.singleton_perm_singleton.1 h1) (by decide +kernel)

/-- Two minerals with the same composition, as parts of a problem. -/
noncomputable def minerals (t : ℝ) : List Part :=
  [⟨phase [constant 0] [solute c!"X"] Activity.idealSolution Activity.idealSolution, [⟨[1], some (1 / 10 ^ 16), none, t⟩]⟩,
    ⟨phase [constant 0] [solute c!"Y"] Activity.idealSolution Activity.idealSolution, [⟨[1], some (1 / 10 ^ 16), none, 2 - t⟩]⟩]

/-- An equilibrium of two minerals, 1/2 and 3/2 moles, and of the same minerals in the other order. -/
example : ∃ props props', Equilibrium polymorphs [1 / 2, 2 - 1 / 2] [] props ∧
    Equilibrium (problem polymorphs (minerals (1 / 2)).reverse []) [2 - 1 / 2, 1 / 2] [] props' ∧
    total (polymorphs.phases.reverse) props' PhaseData.G = total polymorphs.phases props PhaseData.G := by
  obtain ⟨props, h⟩ := polymorphs_equilibrium (1 / 2) (by norm_num) (by norm_num)
  obtain ⟨props', h1, -, h2⟩ := C111_equilibrium polymorphs (minerals (1 / 2)) (minerals (1 / 2)).reverse (List.reverse_perm _).symm []
    polymorphs_regular.sizes (by
      intro a ha
      simp only [minerals, List.mem_cons, List.not_mem_nil, or_false] at ha
      rcases ha with rfl | rfl <;> rfl) props h
  exact ⟨props, props', h, h1, h2 _⟩

/-- Properties of the minerals in the other order. -/
example : ∃ (p p' : Props ℝ), (stored polymorphs.phases p).Perm (stored polymorphs.phases.reverse p') ∧ p ≠ p' := by
  obtain ⟨p, ⟨-, ⟨old, hs, hu⟩, -⟩⟩ := polymorphs_equilibrium (1 / 2) (by norm_num) (by norm_num)
  obtain ⟨old', p', g1, -, g2, g3, -⟩ := C111_properties polymorphs.R false polymorphs.T polymorphs.P
    [(phase [constant 0] [solute c!"X"] Activity.idealSolution Activity.idealSolution, [1 / 2]),
      (phase [constant 0] [solute c!"Y"] Activity.idealSolution Activity.idealSolution, [2 - 1 / 2])] _ (List.reverse_perm _).symm
    polymorphs_regular.sizes (by intro ph hph; simp only [List.mem_cons, List.not_mem_nil, or_false] at hph; rcases hph with rfl | rfl <;> rfl) old p hs hu
  refine ⟨p, p', g3, ?_⟩
  intro he
  have e1 := C32_amounts _ _ polymorphs_regular.sizes polymorphs_regular.nonempty false old hs _ _ _ rfl p hu
  have e2 := C32_amounts _ polymorphs.phases.reverse
    (by intro ph hph; exact polymorphs_regular.sizes ph (by simpa using hph)) (by intro ph hph; exact polymorphs_regular.nonempty ph (by simpa using hph))
    false old' g1 polymorphs.T polymorphs.P [2 - 1 / 2, 1 / 2] rfl p' g2
  rw [← he, e1] at e2
  norm_num at e2

end Examples

end Verif.PhaseOrder
