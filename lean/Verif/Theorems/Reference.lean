import Verif.Spec.Reference
import Verif.Theorems.IdealEquilibrium
import Verif.Theorems.Imposed

/-!
# C109: energies relative to other reference states of the elements
-/

namespace Verif.Reference

open ChemicalProps IdealEquilibrium
open ArraySerialization (Props)

section Properties

variable {K : Type}

/-- The list with `g j` added to the entry with index `j`. -/
def raise [Add K] (g : Nat → K) (l : List K) : List K := l.mapIdx fun j y => y + g j

theorem length_raise [Add K] (g : Nat → K) (l : List K) : (raise g l).length = l.length := by simp [raise]

theorem getElem_raise [Add K] (g : Nat → K) (l : List K) (j : Nat) (hj : j < (raise g l).length) :
    (raise g l)[j] = l[j]'(by rw [length_raise] at hj; exact hj) + g j := by simp [raise]

/-- The data of a phase with other standard Gibbs energies and enthalpies. -/
def raised [Add K] (g h : Nat → K) (d : PhaseData K) : PhaseData K :=
  { d with G0 := raise g d.G0, H0 := raise h d.H0, u := raise g d.u }

theorem stdLoop_other [Add K] (T P : K) (g h : Nat → K) : ∀ (fs fs' : List (K → K → Option (Std K))) (i : Nat) (d d' : PhaseData K),
    fs'.length = fs.length →
    (∀ (j : Nat) (f f' : K → K → Option (Std K)), fs[j]? = some f → fs'[j]? = some f' →
      f' T P = (f T P).map fun s => { s with G0 := s.G0 + g (i + j), H0 := s.H0 + h (i + j) }) →
    d' = { d with G0 := d'.G0, H0 := d'.H0 } → d'.G0.length = d.G0.length → d'.H0.length = d.H0.length →
    (∀ k (h1 : k < d'.G0.length) (h2 : k < d.G0.length), k < i → d'.G0[k] = d.G0[k] + g k) →
    (∀ k (h1 : k < d'.H0.length) (h2 : k < d.H0.length), k < i → d'.H0[k] = d.H0[k] + h k) →
    (stdLoop T P fs' i d').2 = (stdLoop T P fs i d).2 ∧
    ((stdLoop T P fs i d).2 = true →
      ∃ r r' : PhaseData K, stdLoop T P fs i d = (r, true) ∧ stdLoop T P fs' i d' = (r', true) ∧
      r' = { r with G0 := r'.G0, H0 := r'.H0 } ∧ r'.G0.length = r.G0.length ∧ r'.H0.length = r.H0.length ∧
      r.G0.length = d.G0.length ∧ r.H0.length = d.H0.length ∧
      (∀ k (h1 : k < r'.G0.length) (h2 : k < r.G0.length), k < i + fs.length → r'.G0[k] = r.G0[k] + g k) ∧
      (∀ k (h1 : k < r'.H0.length) (h2 : k < r.H0.length), k < i + fs.length → r'.H0[k] = r.H0[k] + h k)) := by
  intro fs
  induction fs with
  | nil =>
    intro fs' i d d' hl _ e l1 l2 g1 h1
    obtain rfl : fs' = [] := List.eq_nil_of_length_eq_zero (by simpa using hl)
    exact ⟨rfl, fun _ => ⟨d, d', rfl, rfl, e, l1, l2, rfl, rfl, by simpa using g1, by simpa using h1⟩⟩
  | cons f fs ih =>
    intro fs' i d d' hl hf e l1 l2 g1 h1
    obtain ⟨f', fs', rfl⟩ := List.exists_cons_of_length_eq_add_one (by simpa using hl : fs'.length = fs.length + 1)
    have e0 := hf 0 f f' rfl rfl
    rw [Nat.add_zero] at e0
    simp only [stdLoop]
    rw [e0]
    cases hs : f T P with
    | none => exact ⟨rfl, fun h => absurd h (by simp)⟩
    | some s =>
      simp only [Option.map_some]
      obtain ⟨a1, a2⟩ := ih fs' (i + 1) (d.setStd i s) (d'.setStd i { s with G0 := s.G0 + g i, H0 := s.H0 + h i }) (by simpa using hl)
        (by
          intro j k k' h1 h2
          have := hf (j + 1) k k' (by simpa using h1) (by simpa using h2)
          rw [this, show i + (j + 1) = i + 1 + j by omega])
        (by rw [e]; rfl) (by simp [PhaseData.setStd, l1]) (by simp [PhaseData.setStd, l2])
        (by
          intro k k1 k2 hk
          simp only [PhaseData.setStd, List.getElem_set]
          by_cases hik : i = k
          · subst hik; simp
          · rw [if_neg hik, if_neg hik]
            exact g1 k (by simpa [PhaseData.setStd] using k1) (by simpa [PhaseData.setStd] using k2) (by omega))
        (by
          intro k k1 k2 hk
          simp only [PhaseData.setStd, List.getElem_set]
          by_cases hik : i = k
          · subst hik; simp
          · rw [if_neg hik, if_neg hik]
            exact h1 k (by simpa [PhaseData.setStd] using k1) (by simpa [PhaseData.setStd] using k2) (by omega))
      refine ⟨a1, fun ht => ?_⟩
      obtain ⟨r, r', b1, b2, b3, b4, b5, b6, b7, b8, b9⟩ := a2 ht
      refine ⟨r, r', b1, b2, b3, b4, b5, by rw [b6]; simp [PhaseData.setStd], by rw [b7]; simp [PhaseData.setStd], ?_, ?_⟩
      · intro k k1 k2 hk
        exact b8 k k1 k2 (by simp only [List.length_cons] at hk; omega)
      · intro k k1 k2 hk
        exact b9 k k1 k2 (by simp only [List.length_cons] at hk; omega)

variable [Field K] [LinearOrder K]

theorem phaseUpdate_other (R : K) (ph ph' : PhaseModel K) (useIdeal : Bool) (T P : K) (g h : Nat → K) (ho : OtherPhase T P g h ph ph')
    (n : List K) (d : PhaseData K) (hG : d.G0.length = ph.size) (hH : d.H0.length = ph.size) :
    (phaseUpdate R ph' useIdeal T P n d).2 = (phaseUpdate R ph useIdeal T P n d).2 ∧
    ((phaseUpdate R ph useIdeal T P n d).2 = true →
      (phaseUpdate R ph' useIdeal T P n d).1 = raised g h (phaseUpdate R ph useIdeal T P n d).1) := by
  have hsz : ph'.size = ph.size := ho.size
  obtain ⟨a1, a2⟩ := stdLoop_other T P g h ph.species ph'.species 0 { d with T := T, P := P, n := n } { d with T := T, P := P, n := n }
    ho.size (by intro j f f' h1 h2; rw [Nat.zero_add]; exact ho.standard j f f' h1 h2) rfl rfl rfl (by intro k _ _ hk; omega) (by intro k _ _ hk; omega)
  unfold phaseUpdate
  dsimp only
  rw [a1, hsz, ho.activity, ho.ideal]
  by_cases h1 : (stdLoop T P ph.species 0 { d with T := T, P := P, n := n }).2 = false
  · rw [if_pos h1, if_pos h1]
    exact ⟨rfl, fun h => absurd h (by simp)⟩
  · rw [if_neg h1, if_neg h1]
    obtain ⟨r, r', b1, b2, b3, b4, b5, b6, b7, b8, b9⟩ := a2 (by simpa using h1)
    rw [b1, b2]
    dsimp only at b6 b7 ⊢
    have eG : r'.G0 = raise g r.G0 := by
      apply List.ext_getElem (by rw [b4, length_raise])
      intro k k1 k2
      rw [getElem_raise]
      exact b8 k k1 (by rw [length_raise] at k2; exact k2) (by rw [length_raise, b6, hG] at k2; simpa [PhaseModel.size] using k2)
    have eH : r'.H0 = raise h r.H0 := by
      apply List.ext_getElem (by rw [b5, length_raise])
      intro k k1 k2
      rw [getElem_raise]
      exact b9 k k1 (by rw [length_raise] at k2; exact k2) (by rw [length_raise, b7, hH] at k2; simpa [PhaseModel.size] using k2)
    rw [b3, eG, eH]
    generalize (if n.sum = 0 then List.replicate ph.size (if ph.size = 1 then (1 : K) else 0) else n.map (fun y => y / n.sum)) = x
    by_cases h2 : minCoeff x = 0
    · rw [if_pos h2, if_pos h2]
      exact ⟨rfl, fun h => absurd h (by simp)⟩
    · rw [if_neg h2, if_neg h2]
      simp only [PhaseData.aprops]
      have fin : ∀ l : List K, List.zipWith (fun g a => g + R * T * a) (raise g r.G0) l = raise g (List.zipWith (fun g a => g + R * T * a) r.G0 l) := by
        intro l
        apply List.ext_getElem
        · simp [length_raise]
        · intro k k1 k2
          rw [getElem_raise, List.getElem_zipWith, List.getElem_zipWith, getElem_raise]
          ring
      by_cases h0 : n.sum = 0
      · simp only [if_pos h0]
        refine ⟨rfl, fun _ => ?_⟩
        simp only [raised, PhaseData.setAprops, Bool.true_eq_false, if_false, fin]
      · simp only [if_neg h0]
        generalize (if useIdeal = true then ph.ideal else ph.activity) T P x _ = a
        by_cases h3 : a.2 = false
        · rw [if_pos h3, if_pos h3]
          exact ⟨rfl, fun h => absurd h (by simp)⟩
        · rw [if_neg h3, if_neg h3]
          refine ⟨rfl, fun _ => ?_⟩
          simp only [raised, PhaseData.setAprops, fin]

omit [Field K] [LinearOrder K] in
theorem sizes_other [Add K] {T P : K} {g h : Nat → K} {phases phases' : List (PhaseModel K)} (ho : Other T P g h phases phases') :
    phases'.map PhaseModel.size = phases.map PhaseModel.size := by
  apply List.ext_getElem (by simp [ho.length])
  intro i h1 h2
  rw [List.getElem_map, List.getElem_map]
  simp only [List.length_map] at h1 h2
  exact (ho.phase i _ _ (List.getElem?_eq_getElem h2) (List.getElem?_eq_getElem h1)).size

omit [Field K] [LinearOrder K] in
theorem frame_other [Add K] [Zero K] {T P : K} {g h : Nat → K} {phases phases' : List (PhaseModel K)} (ho : Other T P g h phases phases') :
    (∀ i, before phases' i = before phases i) ∧ (∀ i, sizeAt phases' i = sizeAt phases i) ∧ count phases' = count phases ∧
    (∀ p i, view phases' p i = view phases p i) ∧ (∀ p, Shape phases' p ↔ Shape phases p) := by
  have e := sizes_other ho
  have e1 : ∀ i, before phases' i = before phases i := by
    intro i
    simp only [before]
    rw [List.map_take, List.map_take, e]
  have e2 : ∀ i, sizeAt phases' i = sizeAt phases i := by
    intro i
    simp only [sizeAt]
    rw [← List.getElem?_map, ← List.getElem?_map, e]
  have e3 : count phases' = count phases := by simp only [count, e]
  refine ⟨e1, e2, e3, ?_, ?_⟩
  · intro p i
    simp only [view, e1, e2]
  · intro p
    constructor
    · intro hs
      refine ⟨?_, ?_⟩
      · rw [← ho.length]; exact hs.perPhase
      · rw [← e3]; exact hs.perSpecies
    · intro hs
      refine ⟨?_, ?_⟩
      · rw [ho.length]; exact hs.perPhase
      · rw [e3]; exact hs.perSpecies

omit [Field K] [LinearOrder K] in
theorem modelsOk_other [Add K] {T P : K} {g h : Nat → K} {phases phases' : List (PhaseModel K)} (ho : Other T P g h phases phases')
    (hm : ModelsOk phases) : ModelsOk phases' := by
  intro ph' h'
  obtain ⟨i, hi, rfl⟩ := List.mem_iff_getElem.1 h'
  have hi' : i < phases.length := by rw [← ho.length]; exact hi
  have o := ho.phase i _ _ (List.getElem?_eq_getElem hi') (List.getElem?_eq_getElem hi)
  rw [o.activity, o.ideal]
  exact hm _ (List.getElem_mem hi')

omit [Field K] [LinearOrder K] in
theorem nonempty_other [Add K] {T P : K} {g h : Nat → K} {phases phases' : List (PhaseModel K)} (ho : Other T P g h phases phases')
    (hm : ∀ ph ∈ phases, ph.size ≠ 0) : ∀ ph ∈ phases', ph.size ≠ 0 := by
  intro ph' h'
  obtain ⟨i, hi, rfl⟩ := List.mem_iff_getElem.1 h'
  have hi' : i < phases.length := by rw [← ho.length]; exact hi
  have o := ho.phase i _ _ (List.getElem?_eq_getElem hi') (List.getElem?_eq_getElem hi)
  have : phases'[i].size = phases[i].size := o.size
  rw [this]
  exact hm _ (List.getElem_mem hi')

theorem phases_other (R : K) (phases phases' : List (PhaseModel K)) (hm : ModelsOk phases) (useIdeal : Bool)
    (p : Props K) (hs : Shape phases p) (T P : K) (g h : Nat → K) (ho : Other T P g h phases phases') (n : List K)
    (hn : n.length = count phases) (p' : Props K) (hu : update R phases useIdeal p T P n = .ok (p', true)) :
    ∃ p'', update R phases' useIdeal p T P n = .ok (p'', true) ∧ Shape phases p'' ∧ p''.T = p'.T ∧ p''.P = p'.P ∧
      ∀ i < phases.length, view phases p'' i = raised (fun j => g (before phases i + j)) (fun j => h (before phases i + j)) (view phases p' i) := by
  obtain ⟨f1, f2, f3, f4, f5⟩ := frame_other ho
  have hs1 : Shape phases { p with T := T, P := P } := ⟨hs.perPhase, hs.perSpecies⟩
  obtain ⟨-, a2, a3, k, -, a5, a6, -, a8⟩ := updateLoop_spec R phases hm useIdeal T P n [] phases rfl _ hs1 p' true hu
  have hk := a6.1 rfl
  obtain ⟨⟨p'', ok⟩, h'⟩ := C32_defined R phases' useIdeal p T P n (by rw [f3]; exact hn)
  obtain ⟨b1, b2, b3, k', -, b5, b6, -, b8⟩ :=
    updateLoop_spec R phases' (modelsOk_other ho hm) useIdeal T P n [] phases' rfl _ ((f5 _).2 hs1) p'' ok h'
  have hl := ho.length
  have step : ∀ (i : Nat) (hi : i < phases.length) (hi' : i < phases'.length),
      (phaseUpdate R phases'[i] useIdeal T P (seg n (before phases' i) phases'[i].size) (view phases' { p with T := T, P := P } i)).2 =
        (phaseUpdate R phases[i] useIdeal T P (seg n (before phases i) phases[i].size) (view phases { p with T := T, P := P } i)).2 ∧
      ((phaseUpdate R phases[i] useIdeal T P (seg n (before phases i) phases[i].size) (view phases { p with T := T, P := P } i)).2 = true →
        (phaseUpdate R phases'[i] useIdeal T P (seg n (before phases' i) phases'[i].size) (view phases' { p with T := T, P := P } i)).1 =
          raised (fun j => g (before phases i + j)) (fun j => h (before phases i + j))
          (phaseUpdate R phases[i] useIdeal T P (seg n (before phases i) phases[i].size) (view phases { p with T := T, P := P } i)).1) := by
    intro i hi hi'
    have o := ho.phase i _ _ (List.getElem?_eq_getElem hi) (List.getElem?_eq_getElem hi')
    have hz : phases'[i].size = phases[i].size := o.size
    have sz := view_sized phases _ hs1 i hi
    rw [f1, f4, hz]
    exact phaseUpdate_other R phases[i] phases'[i] useIdeal T P _ _ o _ _ (sz.G0.trans (sizeAt_of_lt _ _ hi)) (sz.H0.trans (sizeAt_of_lt _ _ hi))
  have hk' : k' = phases'.length := by
    by_contra hne
    have hlt : k' < phases'.length := by omega
    have hlt0 : k' < phases.length := by omega
    obtain ⟨-, -, e3⟩ := b8 k' hlt (Nat.zero_le _) (Nat.le_refl _)
    obtain ⟨-, -, f3⟩ := a8 k' hlt0 (Nat.zero_le _) (by omega)
    rw [(step k' hlt0 hlt).1] at e3
    have := e3.1 (f3.2 (by omega))
    omega
  obtain rfl := b6.2 hk'
  refine ⟨p'', h', (f5 _).1 b1, b2.trans a2.symm, b3.trans a3.symm, ?_⟩
  intro i hi
  have hi' : i < phases'.length := by omega
  obtain ⟨-, e2, -⟩ := b8 i hi' (Nat.zero_le _) (by omega)
  obtain ⟨-, g2, g3⟩ := a8 i hi (Nat.zero_le _) (by omega)
  rw [← f4, e2, g2]
  exact (step i hi hi').2 (g3.2 (by omega))

omit [Field K] [LinearOrder K] in
theorem locate (phases : List (PhaseModel K)) (j : Nat) : ∀ m, m ≤ phases.length → j < before phases m →
    ∃ i, i < m ∧ ∃ k, k < sizeAt phases i ∧ j = before phases i + k := by
  intro m
  induction m with
  | zero => intro _ h; simp [before] at h
  | succ m ih =>
    intro hm h
    by_cases hj : j < before phases m
    · obtain ⟨i, hi, r⟩ := ih (by omega) hj
      exact ⟨i, by omega, r⟩
    · rw [before_succ] at h
      exact ⟨m, by omega, j - before phases m, by omega, by omega⟩

omit [LinearOrder K] in
/-- From the blocks of the phases to the arrays of the system. -/
theorem of_blocks (phases : List (PhaseModel K)) (a a' : List K) (ha : a.length = count phases) (ha' : a'.length = count phases) (g : Nat → K)
    (h : ∀ i < phases.length, seg a' (before phases i) (sizeAt phases i) = raise (fun j => g (before phases i + j)) (seg a (before phases i) (sizeAt phases i))) :
    ∀ j < count phases, a'.getD j 0 = a.getD j 0 + g j := by
  intro j hj
  rw [← before_length] at hj
  obtain ⟨i, hi, k, hk, rfl⟩ := locate phases j phases.length (Nat.le_refl _) hj
  rw [before_length] at hj
  have e := congrArg (fun l : List K => l[k]?) (h i hi)
  simp only [raise, List.getElem?_mapIdx, getElem?_seg, if_pos hk] at e
  rw [List.getD_eq_getElem?_getD, List.getD_eq_getElem?_getD, e, List.getElem?_eq_getElem (by omega)]
  rfl

omit [LinearOrder K] in
theorem dot_raise (g : Nat → K) (x G : List K) (h : G.length = x.length) :
    (List.zipWith (· * ·) x (raise g G)).sum = (List.zipWith (· * ·) x G).sum + ∑ k ∈ Finset.range x.length, x.getD k 0 * g k := by
  induction x generalizing g G with
  | nil => simp
  | cons a x ih =>
    cases G with
    | nil => simp at h
    | cons b G =>
      have e : raise g (b :: G) = (b + g 0) :: raise (fun j => g (j + 1)) G := by simp [raise, List.mapIdx_cons]
      rw [e]
      simp only [List.zipWith_cons_cons, List.sum_cons, List.length_cons]
      rw [ih _ _ (by simpa using h), Finset.sum_range_succ']
      simp only [List.getD_cons_zero, List.getD_cons_succ]
      ring

omit [LinearOrder K] in
theorem sum_blocks (phases : List (PhaseModel K)) (f : Nat → K) : ∀ m,
    ((List.range m).map fun i => ∑ k ∈ Finset.range (sizeAt phases i), f (before phases i + k)).sum = ∑ j ∈ Finset.range (before phases m), f j := by
  intro m
  induction m with
  | zero => simp [before]
  | succ m ih => rw [List.range_succ, List.map_append, List.sum_append, ih, before_succ, Finset.sum_range_add]; simp

omit [LinearOrder K] in
theorem total_raised [DecidableEq K] (phases : List (PhaseModel K)) (p p' : Props K) (n : List K) (f : PhaseData K → K) (g : Nat → K)
    (h : ∀ i < phases.length, f (view phases p' i) = f (view phases p i) +
      ∑ k ∈ Finset.range (sizeAt phases i), n.getD (before phases i + k) 0 * g (before phases i + k)) :
    total phases p' f = total phases p f + ∑ j ∈ Finset.range (count phases), n.getD j 0 * g j := by
  rw [total_eq, total_eq, ← before_length, ← sum_blocks phases (fun j => n.getD j 0 * g j) phases.length]
  have : ∀ (l : List Nat) (a b c : Nat → K), (∀ i ∈ l, a i = b i + c i) → (l.map a).sum = (l.map b).sum + (l.map c).sum := by
    intro l a b c
    induction l with
    | nil => simp
    | cons x l ih =>
      intro h
      simp only [List.map_cons, List.sum_cons]
      rw [ih (fun i hi => h i (List.mem_cons_of_mem _ hi)), h x List.mem_cons_self]
      ring
  exact this _ _ _ _ fun i hi => h i (List.mem_range.1 hi)

/-- The moles of a species times its amount, phase by phase. -/
theorem amounts_of_computed {R : K} {ph : PhaseModel K} {useIdeal : Bool} {T P : K} {n : List K} {d : PhaseData K}
    (hc : Computed R ph useIdeal T P n d) (hn : n.length = ph.size) (g : Nat → K) :
    d.x.length = n.length ∧ (∑ k ∈ Finset.range n.length, d.x.getD k 0 * g k) * d.nsum = ∑ k ∈ Finset.range n.length, n.getD k 0 * g k := by
  by_cases h0 : n.sum = 0
  · obtain ⟨h1, h2⟩ := hc.pure h0
    obtain ⟨a, rfl⟩ := List.length_eq_one_iff.1 (hn.trans h1)
    simp only [List.sum_cons, List.sum_nil, add_zero] at h0
    subst h0
    rw [hc.amount, h2]
    simp
  · have hx := hc.fractions h0
    refine ⟨by rw [hx]; simp, ?_⟩
    rw [hc.amount, Finset.sum_mul]
    apply Finset.sum_congr rfl
    intro k hk
    have hk := Finset.mem_range.1 hk
    have e : d.x.getD k 0 = n.getD k 0 / n.sum := by
      rw [hx, List.getD_eq_getElem _ _ (by simpa using hk), List.getElem_map, List.getD_eq_getElem _ _ hk]
    rw [e]
    field_simp

/-- **C109 (properties).** With `g j` added to the standard Gibbs energy and `h j` to the standard enthalpy of each species `j`, the properties are
computed in the same cases; standard Gibbs energies, standard enthalpies and chemical potentials are greater by these values, the energies of the system
by the sums of these values times the amounts; mole fractions, activities, activity coefficients, volumes and heat capacities are the same. -/
theorem C109_properties (R : K) (phases phases' : List (PhaseModel K)) (hm : ModelsOk phases) (hne : ∀ ph ∈ phases, ph.size ≠ 0) (useIdeal : Bool)
    (p : Props K) (hs : Shape phases p) (T P : K) (g h : Nat → K) (ho : Other T P g h phases phases') (n : List K)
    (hn : n.length = count phases) (p' : Props K) (hu : update R phases useIdeal p T P n = .ok (p', true)) :
    ∃ p'', update R phases' useIdeal p T P n = .ok (p'', true) ∧
      (∀ j < count phases, p''.G0.getD j 0 = p'.G0.getD j 0 + g j ∧ p''.H0.getD j 0 = p'.H0.getD j 0 + h j ∧
        p''.u.getD j 0 = p'.u.getD j 0 + g j) ∧
      gibbsEnergy phases' p'' = gibbsEnergy phases p' + ∑ j ∈ Finset.range (count phases), n.getD j 0 * g j ∧
      enthalpy phases' p'' = enthalpy phases p' + ∑ j ∈ Finset.range (count phases), n.getD j 0 * h j ∧
      entropy phases' p'' = entropy phases p' + ∑ j ∈ Finset.range (count phases), n.getD j 0 * ((h j - g j) / T) ∧
      internalEnergy phases' p'' = internalEnergy phases p' + ∑ j ∈ Finset.range (count phases), n.getD j 0 * h j ∧
      helmholtzEnergy phases' p'' = helmholtzEnergy phases p' + ∑ j ∈ Finset.range (count phases), n.getD j 0 * (h j - T * ((h j - g j) / T)) ∧
      volume phases' p'' = volume phases p' ∧
      p''.T = p'.T ∧ p''.P = p'.P ∧ p''.n = p'.n ∧ p''.x = p'.x ∧ p''.ln_g = p'.ln_g ∧ p''.ln_a = p'.ln_a ∧
      p''.V0 = p'.V0 ∧ p''.Cp0 = p'.Cp0 ∧ p''.Cv0 = p'.Cv0 := by
  obtain ⟨f1, f2, f3, f4, f5⟩ := frame_other ho
  obtain ⟨p'', h'', hs'', hT, hP, hv⟩ := phases_other R phases phases' hm useIdeal p hs T P g h ho n hn p' hu
  obtain ⟨hs', hT', hP', hc⟩ := C32_update R phases hm hne useIdeal p hs T P n p' hu
  obtain ⟨-, x1, x2, x3, x4, x5, x6, x7, x8, x9, x10⟩ := C32_blocks phases p'' hs''
  obtain ⟨-, y1, y2, y3, y4, y5, y6, y7, y8, y9, y10⟩ := C32_blocks phases p' hs'
  have cong : ∀ f : PhaseData K → List K, (∀ g h d, f (raised g h d) = f d) →
      (List.range phases.length).flatMap (fun i => f (view phases p'' i)) = (List.range phases.length).flatMap (fun i => f (view phases p' i)) := by
    intro f hf
    apply List.flatMap_congr
    intro i hi
    rw [hv i (List.mem_range.1 hi), hf]
  have len : ∀ i, i < phases.length → ∀ hi : i < phases.length, (seg n (before phases i) phases[i].size).length = sizeAt phases i := by
    intro i _ hi
    rw [sizeAt_of_lt _ _ hi]
    exact seg_length _ _ _ (by rw [hn, ← sizeAt_of_lt _ _ hi]; exact before_le phases i hi)
  -- what is added to a sum over the species of a phase
  have key : ∀ i, i < phases.length → ∀ (g : Nat → K),
      (∑ k ∈ Finset.range (view phases p' i).x.length, (view phases p' i).x.getD k 0 * g (before phases i + k)) * (view phases p' i).nsum =
      ∑ k ∈ Finset.range (sizeAt phases i), n.getD (before phases i + k) 0 * g (before phases i + k) := by
    intro i hi g
    have hl := len i hi hi
    obtain ⟨a1, a2⟩ := amounts_of_computed (hc i hi) (hl.trans (sizeAt_of_lt _ _ hi)) (fun k => g (before phases i + k))
    rw [a1, a2, hl]
    apply Finset.sum_congr rfl
    intro k hk
    have hk := Finset.mem_range.1 hk
    congr 1
    rw [List.getD_eq_getElem?_getD, getElem?_seg, ← sizeAt_of_lt _ _ hi, if_pos hk, ← List.getD_eq_getElem?_getD]
  have xl : ∀ i, i < phases.length → (view phases p' i).G0.length = (view phases p' i).x.length ∧
      (view phases p' i).H0.length = (view phases p' i).x.length := by
    intro i hi
    have sz := view_sized phases p' hs' i hi
    exact ⟨sz.G0.trans sz.x.symm, sz.H0.trans sz.x.symm⟩
  have mG : ∀ i (hi : i < phases.length), (view phases p'' i).molarG = (view phases p' i).molarG +
      ∑ k ∈ Finset.range (view phases p' i).x.length, (view phases p' i).x.getD k 0 * g (before phases i + k) := by
    intro i hi
    rw [hv i hi]
    simp only [PhaseData.molarG, raised]
    rw [dot_raise _ _ _ (xl i hi).1]
    ring
  have mH : ∀ i (hi : i < phases.length), (view phases p'' i).molarH = (view phases p' i).molarH +
      ∑ k ∈ Finset.range (view phases p' i).x.length, (view phases p' i).x.getD k 0 * h (before phases i + k) := by
    intro i hi
    rw [hv i hi]
    simp only [PhaseData.molarH, raised]
    rw [dot_raise _ _ _ (xl i hi).2]
    ring
  have mV : ∀ i (hi : i < phases.length), (view phases p'' i).molarV = (view phases p' i).molarV := by
    intro i hi; rw [hv i hi]; rfl
  have am : ∀ i (hi : i < phases.length), (view phases p'' i).nsum = (view phases p' i).nsum := by
    intro i hi; rw [hv i hi]; rfl
  have vT : ∀ i (hi : i < phases.length), (view phases p'' i).T = T ∧ (view phases p' i).T = T ∧ (view phases p'' i).P = (view phases p' i).P := by
    intro i hi; rw [hv i hi]; exact ⟨(hc i hi).temperature, (hc i hi).temperature, rfl⟩
  have tot : ∀ f, total phases' p'' f = total phases p'' f := by
    intro f
    rw [total_eq, total_eq, ho.length]
    simp only [f4]
  have mS : ∀ i (hi : i < phases.length), (view phases p'' i).molarS = (view phases p' i).molarS +
      ∑ k ∈ Finset.range (view phases p' i).x.length, (view phases p' i).x.getD k 0 * ((h (before phases i + k) - g (before phases i + k)) / T) := by
    intro i hi
    simp only [PhaseData.molarS]
    rw [mG i hi, mH i hi, (vT i hi).1, (vT i hi).2.1]
    have : ∑ k ∈ Finset.range (view phases p' i).x.length, (view phases p' i).x.getD k 0 * ((h (before phases i + k) - g (before phases i + k)) / T) =
        (∑ k ∈ Finset.range (view phases p' i).x.length, (view phases p' i).x.getD k 0 * h (before phases i + k) -
          ∑ k ∈ Finset.range (view phases p' i).x.length, (view phases p' i).x.getD k 0 * g (before phases i + k)) / T := by
      rw [← Finset.sum_sub_distrib, Finset.sum_div]
      apply Finset.sum_congr rfl
      intro k _
      ring
    rw [this]
    ring
  have mU : ∀ i (hi : i < phases.length), (view phases p'' i).molarU = (view phases p' i).molarU +
      ∑ k ∈ Finset.range (view phases p' i).x.length, (view phases p' i).x.getD k 0 * h (before phases i + k) := by
    intro i hi
    simp only [PhaseData.molarU]
    rw [mH i hi, mV i hi, (vT i hi).2.2]
    ring
  refine ⟨p'', h'', ?_, ?_, ?_, ?_, ?_, ?_, ?_, hT, hP, ?_, ?_, ?_, ?_, ?_, ?_, ?_⟩
  · have l' : p'.G0.length = count phases ∧ p'.H0.length = count phases ∧ p'.u.length = count phases :=
      ⟨hs'.perSpecies _ (by simp), hs'.perSpecies _ (by simp), hs'.perSpecies _ (by simp)⟩
    have l'' : p''.G0.length = count phases ∧ p''.H0.length = count phases ∧ p''.u.length = count phases :=
      ⟨hs''.perSpecies _ (by simp), hs''.perSpecies _ (by simp), hs''.perSpecies _ (by simp)⟩
    intro j hj
    refine ⟨of_blocks phases _ _ l'.1 l''.1 g ?_ j hj, of_blocks phases _ _ l'.2.1 l''.2.1 h ?_ j hj, of_blocks phases _ _ l'.2.2 l''.2.2 g ?_ j hj⟩
    · intro i hi; exact congrArg PhaseData.G0 (hv i hi)
    · intro i hi; exact congrArg PhaseData.H0 (hv i hi)
    · intro i hi; exact congrArg PhaseData.u (hv i hi)
  · unfold gibbsEnergy
    rw [tot]
    apply total_raised
    intro i hi
    simp only [PhaseData.G, PhaseData.amount]
    rw [mG i hi, am i hi, add_mul, key i hi]
  · unfold enthalpy
    rw [tot]
    apply total_raised
    intro i hi
    simp only [PhaseData.H, PhaseData.amount]
    rw [mH i hi, am i hi, add_mul, key i hi]
  · unfold entropy
    rw [tot]
    apply total_raised phases p' p'' n _ (fun j => (h j - g j) / T)
    intro i hi
    simp only [PhaseData.S, PhaseData.amount]
    rw [mS i hi, am i hi, add_mul, key i hi (fun j => (h j - g j) / T)]
  · unfold internalEnergy
    rw [tot]
    apply total_raised
    intro i hi
    simp only [PhaseData.U, PhaseData.amount]
    rw [mU i hi, am i hi, add_mul, key i hi]
  · unfold helmholtzEnergy
    rw [tot]
    apply total_raised phases p' p'' n _ (fun j => h j - T * ((h j - g j) / T))
    intro i hi
    have k1 := key i hi h
    have k2 := key i hi (fun j => (h j - g j) / T)
    simp only [PhaseData.A, PhaseData.amount, PhaseData.molarA]
    rw [mU i hi, mS i hi, am i hi, (vT i hi).1, (vT i hi).2.1]
    have e : ∑ k ∈ Finset.range (sizeAt phases i), n.getD (before phases i + k) 0 *
        (h (before phases i + k) - T * ((h (before phases i + k) - g (before phases i + k)) / T)) =
        ∑ k ∈ Finset.range (sizeAt phases i), n.getD (before phases i + k) 0 * h (before phases i + k) -
        T * ∑ k ∈ Finset.range (sizeAt phases i), n.getD (before phases i + k) 0 * ((h (before phases i + k) - g (before phases i + k)) / T) := by
      rw [Finset.mul_sum, ← Finset.sum_sub_distrib]
      apply Finset.sum_congr rfl
      intro k _
      ring
    rw [e, ← k1, ← k2]
    ring
  · unfold volume
    rw [tot, total_eq, total_eq]
    congr 1
    apply List.map_congr_left
    intro i hi
    have hi := List.mem_range.1 hi
    simp only [PhaseData.V, PhaseData.amount]
    rw [mV i hi, am i hi]
  · rw [x1, y1]; exact cong PhaseData.n fun _ _ _ => rfl
  · rw [x2, y2]; exact cong PhaseData.x fun _ _ _ => rfl
  · rw [x8, y8]; exact cong PhaseData.ln_g fun _ _ _ => rfl
  · rw [x9, y9]; exact cong PhaseData.ln_a fun _ _ _ => rfl
  · rw [x5, y5]; exact cong PhaseData.V0 fun _ _ _ => rfl
  · rw [x6, y6]; exact cong PhaseData.Cp0 fun _ _ _ => rfl
  · rw [x7, y7]; exact cong PhaseData.Cv0 fun _ _ _ => rfl

end Properties

section Equilibria

theorem added_sum (A : List (List Rat)) (c : Nat → ℝ) (x : List ℝ) :
    ∑ j ∈ Finset.range x.length, x.getD j 0 * added A c j = ∑ i ∈ Finset.range A.length, c i * balance A x i := by
  unfold added balance
  simp only [Finset.mul_sum]
  rw [Finset.sum_comm]
  apply Finset.sum_congr rfl
  intro i _
  apply Finset.sum_congr rfl
  intro j _
  ring

theorem gradient_species (pr : Problem) (n u : List ℝ) (hu : u.length = n.length) (j : Nat) (hj : j < n.length) :
    (pr.gradient n u).getD j 0 = u.getD j 0 / (pr.R * pr.T) - pr.eps * pr.factor / n.getD j 0 := by
  have h3 : j < (List.zipWith (fun u n => u / (pr.R * pr.T) - pr.eps * pr.factor / n) u n).length := by
    rw [List.length_zipWith]; omega
  unfold Problem.gradient EquilibriumSetup.gradX EquilibriumSetup.gradN
  rw [List.getD_append _ _ _ _ h3, List.getD_eq_getElem _ _ h3, List.getElem_zipWith, List.getD_eq_getElem _ _ (by omega),
    List.getD_eq_getElem _ _ hj]

theorem gradient_titrant (pr : Problem) (n u : List ℝ) (hu : u.length = n.length) (k : Nat) (hk : k < pr.uq.length) :
    (pr.gradient n u).getD (n.length + k) 0 = pr.uq.getD k 0 / (pr.R * pr.T) := by
  have h3 : (List.zipWith (fun u n => u / (pr.R * pr.T) - pr.eps * pr.factor / n) u n).length = n.length := by
    rw [List.length_zipWith]; omega
  unfold Problem.gradient EquilibriumSetup.gradX EquilibriumSetup.gradN EquilibriumSetup.gradQ
  rw [List.getD_append_right _ _ _ _ (by omega), h3, Nat.add_sub_cancel_left, List.getD_eq_getElem _ _ (by simpa using hk), List.getElem_map,
    List.getD_eq_getElem _ _ hk]

theorem proper_other {c d : Nat → ℝ} {pr pr' : Problem} (hr : Proper pr) (ho : OtherReference c d pr pr') : Proper pr' :=
  ⟨modelsOk_other ho.phases hr.sizes, nonempty_other ho.phases hr.nonempty⟩

/-- **C109 (equilibria).** An equilibrium state is also one with another reference of the energies: the same amounts of species and titrants,
mole fractions, activities and volume. The chemical potentials are greater by what has been added, and the energies of the system, with
those of the titrants, by what has been added for the elements in it. -/
theorem C109_equilibrium (c d : Nat → ℝ) (pr pr' : Problem) (hr : Proper pr) (ho : OtherReference c d pr pr') (n q : List ℝ) (props : Props ℝ)
    (h : Equilibrium pr n q props) :
    ∃ props', Equilibrium pr' n q props' ∧ props'.x = props.x ∧ props'.ln_g = props.ln_g ∧ props'.ln_a = props.ln_a ∧
      (∀ j < n.length, props'.u.getD j 0 = props.u.getD j 0 + added pr.A c j) ∧
      volume pr'.phases props' = volume pr.phases props ∧
      gibbsEnergy pr'.phases props' + ∑ k ∈ Finset.range q.length, q.getD k 0 * added pr.A c (n.length + k) =
        gibbsEnergy pr.phases props + ∑ i ∈ Finset.range pr.A.length, c i * pr.b.getD i 0 ∧
      enthalpy pr'.phases props' + ∑ k ∈ Finset.range q.length, q.getD k 0 * added pr.A d (n.length + k) =
        enthalpy pr.phases props + ∑ i ∈ Finset.range pr.A.length, d i * pr.b.getD i 0 := by
  obtain ⟨hf, hh, y, hy⟩ := h
  have hul := u_length pr hr n hf.species props hh
  obtain ⟨old, hold, hup⟩ := hh
  obtain ⟨props', h', hj, hG, hH, -, -, -, hV, -, -, -, hx, hg, ha, -⟩ :=
    C109_properties pr.R pr.phases pr'.phases hr.sizes hr.nonempty false old hold pr.T pr.P _ _ ho.phases n hf.species props hup
  obtain ⟨f1, f2, f3, f4, f5⟩ := frame_other ho.phases
  have e := ho.rest
  have eA : pr'.A = pr.A := by rw [e]
  have eR : pr'.R = pr.R := by rw [e]
  have eT : pr'.T = pr.T := by rw [e]
  have eP : pr'.P = pr.P := by rw [e]
  have ee : pr'.eps = pr.eps := by rw [e]
  have ef : pr'.factor = pr.factor := by rw [e]
  have eb : pr'.b = pr.b := by rw [e]
  have el : pr'.lower = pr.lower := by rw [e]
  have eu : pr'.upper = pr.upper := by rw [e]
  have hh' : Has pr' n props' := ⟨old, (f5 _).2 hold, by rw [eR, eT, eP]; exact h'⟩
  have hul' := u_length pr' (proper_other hr ho) n (by rw [f3]; exact hf.species) props' hh'
  have sums : ∀ c : Nat → ℝ, ∑ j ∈ Finset.range (count pr.phases), n.getD j 0 * added pr.A c j +
      ∑ k ∈ Finset.range q.length, q.getD k 0 * added pr.A c (n.length + k) = ∑ i ∈ Finset.range pr.A.length, c i * pr.b.getD i 0 := by
    intro c
    rw [← hf.species]
    have e1 := added_sum pr.A c (n ++ q)
    rw [List.length_append, Finset.sum_range_add] at e1
    have e2 : ∑ j ∈ Finset.range n.length, (n ++ q).getD j 0 * added pr.A c j = ∑ j ∈ Finset.range n.length, n.getD j 0 * added pr.A c j := by
      apply Finset.sum_congr rfl
      intro j hj
      rw [List.getD_append _ _ _ _ (Finset.mem_range.1 hj)]
    have e3 : ∑ k ∈ Finset.range q.length, (n ++ q).getD (n.length + k) 0 * added pr.A c (n.length + k) =
        ∑ k ∈ Finset.range q.length, q.getD k 0 * added pr.A c (n.length + k) := by
      apply Finset.sum_congr rfl
      intro k _
      rw [List.getD_append_right _ _ _ _ (by omega), Nat.add_sub_cancel_left]
    rw [e2, e3] at e1
    rw [e1]
    apply Finset.sum_congr rfl
    intro i hi
    rw [hf.balances i (Finset.mem_range.1 hi)]
  refine ⟨props', ⟨⟨?_, ?_, ?_, ?_, ?_⟩, hh', fun i => y i + c i / (pr.R * pr.T), ?_⟩, hx, hg, ha, ?_, hV, ?_, ?_⟩
  · rw [f3]; exact hf.species
  · rw [ho.uq.1]; exact hf.titrants
  · rw [eA, eb]; exact hf.balances
  · rw [el]; exact hf.lower
  · rw [eu]; exact hf.upper
  · intro j hjl
    have grad : (pr'.gradient n props'.u).getD j 0 = (pr.gradient n props.u).getD j 0 + added pr.A c j / (pr.R * pr.T) := by
      by_cases hjn : j < n.length
      · rw [gradient_species pr' n _ hul' j hjn, gradient_species pr n _ hul j hjn, (hj j (by rw [← hf.species]; exact hjn)).2.2, eR, eT, ee, ef]
        ring
      · obtain ⟨k, rfl⟩ := Nat.exists_eq_add_of_le (Nat.not_lt.1 hjn)
        have hk : k < pr.uq.length := by rw [← hf.titrants]; omega
        rw [gradient_titrant pr' n _ hul' k (by rw [ho.uq.1]; exact hk), gradient_titrant pr n _ hul k hk, ho.uq.2 k hk, eR, eT, hf.species]
        ring
    have hs : ∑ i ∈ Finset.range pr.A.length, (y i + c i / (pr.R * pr.T)) * (((pr.A.getD i []).getD j 0 : Rat) : ℝ) =
        ∑ i ∈ Finset.range pr.A.length, y i * (((pr.A.getD i []).getD j 0 : Rat) : ℝ) + added pr.A c j / (pr.R * pr.T) := by
      unfold added
      rw [Finset.sum_div, ← Finset.sum_add_distrib]
      apply Finset.sum_congr rfl
      intro i _
      ring
    have := hy j hjl
    dsimp only at this ⊢
    rw [eA, hs, grad, el, eu, add_sub_add_right_eq_sub]
    exact this
  · intro j hjn
    exact (hj j (by rw [← hf.species]; exact hjn)).2.2
  · rw [hG, add_assoc, sums]
  · rw [hH, add_assoc, sums]

theorem other_symm {K : Type} [AddGroup K] {T P : K} {g h : Nat → K} {phases phases' : List (PhaseModel K)} (ho : Other T P g h phases phases') :
    Other T P (fun j => -g j) (fun j => -h j) phases' phases := by
  refine ⟨ho.length.symm, ?_⟩
  intro i ph ph' h1 h2
  have o := ho.phase i ph' ph h2 h1
  have hb : before phases' i = before phases i := by
    simp only [before]
    rw [List.map_take, List.map_take, sizes_other ho]
  refine ⟨o.activity.symm, o.ideal.symm, o.masses.symm, o.size.symm, ?_⟩
  intro j f f' h3 h4
  rw [o.standard j f' f h4 h3, hb]
  cases f' T P with
  | none => rfl
  | some s => simp

theorem otherReference_symm {c d : Nat → ℝ} {pr pr' : Problem} (ho : OtherReference c d pr pr') :
    OtherReference (fun i => -c i) (fun i => -d i) pr' pr := by
  have e := ho.rest
  have eA : pr'.A = pr.A := by rw [e]
  have eT : pr'.T = pr.T := by rw [e]
  have eP : pr'.P = pr.P := by rw [e]
  have neg : ∀ c j, added pr'.A (fun i => -c i) j = -added pr.A c j := by
    intro c j
    unfold added
    rw [eA, ← Finset.sum_neg_distrib]
    apply Finset.sum_congr rfl
    intro i _
    ring
  refine ⟨?_, ⟨ho.uq.1.symm, ?_⟩, ?_⟩
  · rw [funext (neg c), funext (neg d), eT, eP]
    exact other_symm ho.phases
  · intro k hk
    rw [neg, (frame_other ho.phases).2.2.1, ho.uq.2 k (by rw [← ho.uq.1]; exact hk)]
    ring
  · rw [e]

/-- **C109 (equilibria are the same).** A state is an equilibrium if and only if it is one with another reference of the energies. -/
theorem C109_same (c d : Nat → ℝ) (pr pr' : Problem) (hr : Proper pr) (ho : OtherReference c d pr pr') (n q : List ℝ) :
    (∃ props, Equilibrium pr n q props) ↔ ∃ props, Equilibrium pr' n q props := by
  constructor
  · rintro ⟨props, h⟩
    obtain ⟨props', h', -⟩ := C109_equilibrium c d pr pr' hr ho n q props h
    exact ⟨props', h'⟩
  · rintro ⟨props, h⟩
    obtain ⟨props', h', -⟩ := C109_equilibrium _ _ pr' pr (proper_other hr ho) (otherReference_symm ho) n q props h
    exact ⟨props', h'⟩

/-- **C109 (reactions).** Gibbs energies, enthalpies and so equilibrium constants of reactions that conserve elements and charge do not depend on the
reference. -/
theorem C109_reactions (c d : Nat → ℝ) (pr pr' : Problem) (hr : Proper pr) (ho : OtherReference c d pr pr') (n : List ℝ)
    (hn : n.length = count pr.phases) (props props' : Props ℝ) (old : Props ℝ) (hold : Shape pr.phases old)
    (h : update pr.R pr.phases false old pr.T pr.P n = .ok (props, true)) (h' : update pr.R pr'.phases false old pr.T pr.P n = .ok (props', true))
    (ν : List ℝ) (hν : ν.length = count pr.phases) (hb : ∀ i < pr.A.length, balance pr.A ν i = 0) :
    dot ν props'.G0 = dot ν props.G0 ∧ dot ν props'.H0 = dot ν props.H0 ∧ dot ν props'.u = dot ν props.u := by
  obtain ⟨p'', h'', hj, -⟩ :=
    C109_properties pr.R pr.phases pr'.phases hr.sizes hr.nonempty false old hold pr.T pr.P _ _ ho.phases n hn props h
  rw [h'] at h''
  obtain rfl : props' = p'' := by injection h'' with h''; injection h''
  have hs := (C32_update pr.R pr.phases hr.sizes hr.nonempty false old hold pr.T pr.P n props h).1
  obtain ⟨-, -, f3, -, f5⟩ := frame_other ho.phases
  have hs' := (f5 _).1 (C32_update pr.R pr'.phases (modelsOk_other ho.phases hr.sizes) (nonempty_other ho.phases hr.nonempty) false old
    ((f5 _).2 hold) pr.T pr.P n props' h').1
  have key : ∀ (a a' : List ℝ) (c : Nat → ℝ), a.length = count pr.phases → a'.length = count pr.phases →
      (∀ j < count pr.phases, a'.getD j 0 = a.getD j 0 + added pr.A c j) → dot ν a' = dot ν a := by
    intro a a' c l l' hj
    rw [dot_range ν a' (by omega), dot_range ν a (by omega)]
    have e := added_sum pr.A c ν
    rw [Finset.sum_eq_zero (s := Finset.range pr.A.length) (fun i hi => by rw [hb i (Finset.mem_range.1 hi), mul_zero])] at e
    have e' : ∑ j ∈ Finset.range ν.length, ν.getD j 0 * a'.getD j 0 =
        ∑ j ∈ Finset.range ν.length, ν.getD j 0 * a.getD j 0 + ∑ j ∈ Finset.range ν.length, ν.getD j 0 * added pr.A c j := by
      rw [← Finset.sum_add_distrib]
      apply Finset.sum_congr rfl
      intro j hjr
      rw [hj j (by rw [← hν]; exact Finset.mem_range.1 hjr)]
      ring
    rw [e', e, add_zero]
  exact ⟨key _ _ c (hs.perSpecies _ (by simp)) (hs'.perSpecies _ (by simp)) fun j hjl => (hj j hjl).1,
    key _ _ d (hs.perSpecies _ (by simp)) (hs'.perSpecies _ (by simp)) fun j hjl => (hj j hjl).2.1,
    key _ _ c (hs.perSpecies _ (by simp)) (hs'.perSpecies _ (by simp)) fun j hjl => (hj j hjl).2.2⟩

end Equilibria

section Constraints

open EquilibriumSpecs EquilibriumSetup ChemicalSystem Imposed

theorem row_unit (row : List Rat) (j : Nat) (hj : j < row.length) : (List.zipWith (· * ·) row (unit row.length j 1)).sum = row.getD j 0 := by
  have h := zip_unit (fun x : Rat => x) 1 row j row[j] (List.getElem?_eq_getElem hj)
  rw [mul_one] at h
  rw [List.getD_eq_getElem _ _ hj, ← h, List.zip_eq_zipWith, List.map_zipWith]

theorem unit_append (N M j : Nat) (a : Rat) (hj : j < N) : unit (N + M) j a = unit N j a ++ List.replicate M 0 := by
  unfold unit
  rw [List.replicate_add, List.set_append_left _ _ (by simpa using hj)]

theorem append_unit (N M j : Nat) (a : Rat) : unit (N + M) (N + j) a = List.replicate N 0 ++ unit M j a := by
  unfold unit
  rw [List.replicate_add, List.set_append_right _ _ (by simp)]
  simp

/-- An entry of the matrix, from the product of the matrix with a unit vector. -/
theorem entry (A : List (List Rat)) (M : Nat) (hM : ∀ row ∈ A, row.length = M) (j : Nat) (hj : j < M) (i : Nat) (hi : i < A.length) :
    (A.getD i []).getD j 0 = (mulVec A (unit M j 1)).getD i 0 := by
  have h1 := hM _ (List.getElem_mem hi)
  unfold mulVec
  rw [List.getD_eq_getElem A _ hi, List.getD_eq_getElem (List.map _ A) _ (by simpa using hi), List.getElem_map]
  rw [← h1, row_unit _ _ (by omega)]

theorem added_totals (elements : List Chem.Element) (A : List (List Rat)) (hA : A.length = elements.length + 1) (c : Nat → ℝ) (j : Nat)
    (content : Str → Rat) (charge : Rat)
    (h : ∀ i < A.length, (A.getD i []).getD j 0 = (elements.map (fun e => content e.symbol) ++ [charge]).getD i 0) :
    added A c j = ∑ i ∈ Finset.range elements.length, c i * ((content ((elements.map (·.symbol)).getD i []) : Rat) : ℝ) +
      c elements.length * (charge : ℝ) := by
  unfold added
  rw [hA, Finset.sum_range_succ, h _ (by omega), List.getD_append_right _ _ _ _ (by simp)]
  simp only [List.length_map, Nat.sub_self, List.getD_cons_zero, add_left_inj]
  apply Finset.sum_congr rfl
  intro i hi
  have hi := Finset.mem_range.1 hi
  rw [h i (by omega), List.getD_append _ _ _ _ (by simpa using hi), List.getD_eq_getElem (n := i) (hn := by simpa using hi),
    List.getD_eq_getElem (n := i) (hn := by simpa using hi), List.getElem_map, List.getElem_map]

theorem matrix_length {K Pr : Type} {sys : System} {s : Specs K Pr} {A : List (List Rat)} (hA : matrixAex sys s = .ok A) :
    A.length = sys.elements.length + 1 := by
  unfold matrixAex at hA
  obtain ⟨cols, -, h⟩ := Res.bind_eq_ok.1 hA
  injection h with h
  rw [← h]
  simp

/-- What is added for a titrant. -/
theorem added_titrant {parse : Str → Option Formula} {db : List EquilibriumSpecs.Species} {calls : List (Call ℝ (Props ℝ))} {sys : System}
    {env : Env ℝ (Props ℝ)} {w : List ℝ} {pr : Problem} {n q : List ℝ} {props : Props ℝ}
    (h : Calculated parse db calls sys env w pr n q props) (c : Nat → ℝ) (k : Nat) (f : Formula)
    (hk : (run parse db calls).titrantsImplicit[k]? = some f) : added pr.A c (count pr.phases + k) = addedTo sys.elements c f := by
  obtain ⟨phases, hphases⟩ := h.system
  have hkl : k < (run parse db calls).titrantsImplicit.length := (List.getElem?_eq_some_iff.1 hk).1
  apply added_totals sys.elements pr.A (matrix_length h.matrix) c _ (formulaContent f) f.charge
  intro i hi
  rw [entry pr.A _ (rows_Aex phases sys hphases _ _ h.matrix) _ (by rw [← h.species]; omega) i hi, ← h.species, append_unit,
    mulVec_Aex phases sys hphases _ h.symbols h.formulas pr.A h.matrix _ _ (by simp)]
  congr 1
  congr 1
  · apply List.map_congr_left
    intro e _
    unfold ChemicalSystem.total titrants
    rw [zip_zero (fun x : Chem.Species => elementContent x e.symbol), zip_unit (fun f : Formula => formulaContent f e.symbol) _ _ _ _ hk]
    ring
  · unfold ChemicalSystem.total titrants
    rw [zip_zero (fun x : Chem.Species => x.charge), zip_unit (fun f : Formula => f.charge) _ _ _ _ hk]
    simp

/-- The constraints of calls that fix no chemical potential are of activities. -/
theorem all_activities (parse : Str → Option Formula) (db : List EquilibriumSpecs.Species) (calls : List (Call ℝ (Props ℝ)))
    (hcalls : ∀ c ∈ calls, NoPotential c) :
    ∀ c ∈ (run parse db calls).uconstraints, ∃ sp conv idx, c.substance = sp.formula ∧ c.fn = some (.activity sp conv idx) := by
  have hin : ∀ (s : Specs ℝ (Props ℝ)) v, (addInput s v).1.uconstraints = s.uconstraints := by
    intro s v
    rcases addInput_eq s v with ⟨-, e⟩ | ⟨-, e⟩ <;> rw [e]
  have hE : ∀ (s : Specs ℝ (Props ℝ)) c, (addEConstraint s c).1.uconstraints = s.uconstraints := by
    intro s c
    rcases addE_eq s c with e | ⟨-, -, -, e⟩ <;> rw [e]
  have hP : ∀ (s : Specs ℝ (Props ℝ)) name input fn, (constrainProperty s name input fn).1.uconstraints = s.uconstraints := by
    intro s name input fn
    unfold constrainProperty
    rcases addInput_eq s input with ⟨-, e⟩ | ⟨-, e⟩ <;> rw [e]
    dsimp only
    rw [hE]
  have hA : ∀ (s : Specs ℝ (Props ℝ)) name sp conv c,
      c ∈ (constrainPotential s name sp.formula (.activity sp conv)).1.uconstraints →
      c ∈ s.uconstraints ∨ ∃ sp conv idx, c.substance = sp.formula ∧ c.fn = some (.activity sp conv idx) := by
    intro s name sp conv c
    unfold constrainPotential
    rcases addInput_eq s name with ⟨-, e⟩ | ⟨-, e⟩ <;> rw [e]
    · exact Or.inl
    · dsimp only
      rcases addU_eq { s with inputs := s.inputs ++ [name] } ⟨name, sp.formula, some (.activity sp conv s.inputs.length)⟩ with e' | ⟨-, -, -, -, -, e'⟩
      · rw [e']; exact Or.inl
      · rw [e']
        intro hc
        simp only [List.mem_append, List.mem_singleton] at hc
        rcases hc with hc | rfl
        · exact Or.inl hc
        · exact Or.inr ⟨sp, conv, _, rfl, rfl⟩
  have hstep : ∀ (s : Specs ℝ (Props ℝ)) (call : Call ℝ (Props ℝ)), NoPotential call → ∀ c ∈ (step parse s call).1.uconstraints,
      c ∈ s.uconstraints ∨ ∃ sp conv idx, c.substance = sp.formula ∧ c.fn = some (.activity sp conv idx) := by
    intro s call hcall c hc
    have hM : ∀ name ion, c ∈ (minusLgActivity parse s name ion).1.uconstraints →
        c ∈ s.uconstraints ∨ ∃ sp conv idx, c.substance = sp.formula ∧ c.fn = some (.activity sp conv idx) := by
      intro name ion
      unfold minusLgActivity
      split
      · exact Or.inl
      · split
        · exact Or.inl
        · split
          · exact Or.inl
          · exact hA _ _ _ _ _
    cases call with
    | temperature => simp only [step, temperature] at hc; rw [hin] at hc; exact Or.inl hc
    | pressure => simp only [step, pressure] at hc; rw [hin] at hc; exact Or.inl hc
    | volume => simp only [step] at hc; rw [hP] at hc; exact Or.inl hc
    | internalEnergy => simp only [step] at hc; rw [hP] at hc; exact Or.inl hc
    | enthalpy => simp only [step] at hc; rw [hP] at hc; exact Or.inl hc
    | gibbsEnergy => simp only [step] at hc; rw [hP] at hc; exact Or.inl hc
    | helmholtzEnergy => simp only [step] at hc; rw [hP] at hc; exact Or.inl hc
    | entropy => simp only [step] at hc; rw [hP] at hc; exact Or.inl hc
    | chemicalPotential x => exact hcall.elim
    | lnActivitySpecies x => exact hA _ _ _ _ _ hc
    | lnActivity x =>
      simp only [step, lnActivity] at hc
      split at hc
      · exact Or.inl hc
      · exact hA _ _ _ _ _ hc
    | fugacity x =>
      simp only [step, fugacity] at hc
      split at hc
      · exact Or.inl hc
      · split at hc
        · exact Or.inl hc
        · split at hc
          · exact Or.inl hc
          · exact hA _ _ _ _ _ hc
    | pH => exact hM _ _ hc
    | pMg => exact hM _ _ hc
    | pE => exact hcall.elim
    | Eh => exact hcall.elim
    | openTo f =>
      simp only [step, openTo] at hc
      split at hc <;> exact Or.inl hc
    | addEConstraint name fn => simp only [step] at hc; rw [hE] at hc; exact Or.inl hc
    | addUConstraint name f fn => exact hcall.elim
    | addInput v => simp only [step] at hc; rw [hin] at hc; exact Or.inl hc
    | addInputParam p =>
      simp only [step, addInputParam] at hc
      rcases addInput_eq s p.id with ⟨-, e⟩ | ⟨-, e⟩ <;> rw [e] at hc <;> exact Or.inl hc
  have main : ∀ (calls : List (Call ℝ (Props ℝ))) (s : Specs ℝ (Props ℝ)), (∀ c ∈ calls, NoPotential c) →
      (∀ c ∈ s.uconstraints, ∃ sp conv idx, c.substance = sp.formula ∧ c.fn = some (.activity sp conv idx)) →
      ∀ c ∈ (calls.foldl (fun s c => (step parse s c).1) s).uconstraints, ∃ sp conv idx, c.substance = sp.formula ∧ c.fn = some (.activity sp conv idx) := by
    intro calls
    induction calls with
    | nil => intro s _ hs; exact hs
    | cons call calls ih =>
      intro s hcs hs
      apply ih _ (fun c hc => hcs c (List.mem_cons_of_mem _ hc))
      intro c hc
      rcases hstep s call (hcs call List.mem_cons_self) c hc with h | h
      · exact hs c h
      · exact h
  exact main calls { database := db } hcalls (by simp)

theorem mapM_range (f g : Nat → Res ℝ) (a : Nat → ℝ) : ∀ (l : List Nat) (r : List ℝ), l.mapM (m := Res) f = .ok r →
    (∀ k ∈ l, ∀ v, f k = .ok v → g k = .ok (v + a k)) → l.mapM (m := Res) g = .ok (List.zipWith (fun v k => v + a k) r l) := by
  intro l
  induction l with
  | nil => intro r h _; rw [List.mapM_nil] at h; injection h with h; subst h; rfl
  | cons x l ih =>
    intro r h hg
    rw [List.mapM_cons] at h ⊢
    obtain ⟨b, hb, h⟩ := Res.bind_eq_ok.1 h
    obtain ⟨bs, hbs, h⟩ := Res.bind_eq_ok.1 h
    injection h with h
    subst h
    apply Res.bind_eq_ok.2
    refine ⟨_, hg x List.mem_cons_self b hb, ?_⟩
    apply Res.bind_eq_ok.2
    exact ⟨_, ih bs hbs (fun k hk => hg k (List.mem_cons_of_mem _ hk)), rfl⟩

/-- **C109 (imposed activities).** The same for calculations in which pH, fugacities and other activities are imposed: if the Gibbs energies of the species
of the database have been changed too, the chemical potentials that the constraints ask for follow, and the state is calculated for the
same inputs. -/
theorem C109_activities (parse : Str → Option Formula) (db : List EquilibriumSpecs.Species) (calls : List (Call ℝ (Props ℝ)))
    (hcalls : ∀ c ∈ calls, NoPotential c) (sys : System) (env : Env ℝ (Props ℝ)) (w : List ℝ) (pr : Problem) (n q : List ℝ) (props : Props ℝ)
    (h : Calculated parse db calls sys env w pr n q props) (c d : Nat → ℝ) (phases' : List (PhaseModel ℝ))
    (ho : Other pr.T pr.P (added pr.A c) (added pr.A d) pr.phases phases') (env' : Env ℝ (Props ℝ)) (henv : env' = { env with G0 := env'.G0 })
    (hG : ∀ sp T P, env'.G0 sp T P = (env.G0 sp T P).map (· + addedTo sys.elements c sp.formula)) :
    ∃ pr' props', pr' = { pr with phases := phases', uq := pr'.uq } ∧ Calculated parse db calls sys env' w pr' n q props' ∧
      props'.x = props.x ∧ props'.ln_a = props.ln_a ∧ volume pr'.phases props' = volume pr.phases props := by
  have hlen := (potential_at h).1
  have hc35 : Consistent (run parse db calls) := C35_invariant parse db calls
  have hul : (run parse db calls).titrantsImplicit.length = (run parse db calls).uconstraints.length := by rw [← hc35.potentials, List.length_map]
  obtain ⟨uq', huq'⟩ : ∃ uq', uq' = List.zipWith (fun v k => v + added pr.A c (count pr.phases + k)) pr.uq (List.range pr.uq.length) := ⟨_, rfl⟩
  have hor : OtherReference c d pr { pr with phases := phases', uq := uq' } := by
    refine ⟨ho, ⟨by simp [huq'], ?_⟩, rfl⟩
    intro k hk
    show uq'.getD k 0 = _
    rw [huq', List.getD_eq_getElem (n := k) (hn := by simpa using hk), List.getElem_zipWith, List.getElem_range, List.getD_eq_getElem _ _ hk]
  obtain ⟨props', he, hx, -, ha, -, hV, -⟩ := C109_equilibrium c d pr _ h.proper hor n q props h.equilibrium
  obtain ⟨hT, hP, -⟩ := potential_of_activity h.proper h.equilibrium.2.1
  obtain ⟨hT', hP', -⟩ := potential_of_activity (proper_other h.proper hor) he.2.1
  have hT' : props'.T = pr.T := hT'
  have hP' : props'.P = pr.P := hP'
  refine ⟨{ pr with phases := phases', uq := uq' }, props', rfl, ?_, hx, ha, hV⟩
  exact {
    system := h.system
    symbols := h.symbols
    formulas := h.formulas
    species := h.species.trans (frame_other ho).2.2.1.symm
    proper := proper_other h.proper hor
    matrix := h.matrix
    gas := by rw [henv]; exact h.gas
    nonzero := h.nonzero
    temperature := by rw [henv]; exact h.temperature
    pressure := by rw [henv]; exact h.pressure
    inputs := h.inputs
    potentials := by
      show evalPotentials env' _ props' w = .ok uq'
      have hp := h.potentials
      unfold evalPotentials at hp ⊢
      rw [mapM_range _ (evalUAt env' (run parse db calls) props' w) (fun k => added pr.A c (count pr.phases + k)) _ _ hp, huq', hlen]
      intro k hk v hv
      have hk := List.mem_range.1 hk
      have hku : k < (run parse db calls).uconstraints.length := by omega
      obtain ⟨sp, conv, idx, s1, s2⟩ := all_activities parse db calls hcalls _ (List.getElem_mem hku)
      have hkt : (run parse db calls).titrantsImplicit[k]? = some sp.formula := by
        rw [← hc35.potentials, List.getElem?_map, List.getElem?_eq_getElem hku, ← s1]
        rfl
      unfold evalUAt at hv ⊢
      rw [at!_of_lt _ _ hku, Res.bind_ok'] at hv ⊢
      simp only [s2, evalU] at hv ⊢
      have t1 : env'.temperature props' = env.temperature props := by
        rw [henv]
        show env.temperature props' = _
        rw [h.temperature, hT, hT']
      have t2 : env'.pressure props' = env.pressure props := by
        rw [henv]
        show env.pressure props' = _
        rw [h.pressure, hP, hP']
      have t3 : convert env' conv = convert env conv := by
        rw [henv]
        cases conv <;> rfl
      have t4 : env'.R = env.R := by rw [henv]
      rw [hG, t1, t2, t3, t4, added_titrant h c k _ hkt]
      cases hg : env.G0 sp (env.temperature props) (env.pressure props) with
      | none => rw [hg] at hv; cases hv
      | some u0 =>
        rw [hg] at hv
        simp only [Option.map_some] at hv ⊢
        obtain ⟨x, hx, hv⟩ := Res.bind_eq_ok.1 hv
        injection hv with hv
        rw [hx, Res.bind_ok', ← hv]
        congr 1
        ring
    free := by
      intro k hk
      exact h.free k (by rw [← (frame_other ho).2.2.1]; exact hk)
    equilibrium := he }

/-- The standard Gibbs energies do not depend on what was there before. -/
theorem standard_unique {pr : Problem} (hr : Proper pr) {n : List ℝ} {p p' : Props ℝ} (h : Has pr n p) (h' : Has pr n p') : p'.G0 = p.G0 := by
  have hs := props_shape pr hr n p h
  have hs' := props_shape pr hr n p' h'
  obtain ⟨old, ho, hu⟩ := h
  obtain ⟨old', ho', hu'⟩ := h'
  obtain ⟨-, -, -, hc⟩ := C32_update pr.R pr.phases hr.sizes hr.nonempty false old ho pr.T pr.P n p hu
  obtain ⟨-, -, -, hc'⟩ := C32_update pr.R pr.phases hr.sizes hr.nonempty false old' ho' pr.T pr.P n p' hu'
  obtain ⟨-, -, -, e, -⟩ := C32_blocks pr.phases p hs
  obtain ⟨-, -, -, e', -⟩ := C32_blocks pr.phases p' hs'
  rw [e, e']
  apply List.flatMap_congr
  intro i hi
  have hi := List.mem_range.1 hi
  have l := (view_sized pr.phases p hs i hi).G0
  have l' := (view_sized pr.phases p' hs' i hi).G0
  rw [sizeAt_of_lt _ _ hi] at l l'
  apply List.ext_getElem?
  intro j
  by_cases hj : j < pr.phases[i].species.length
  · obtain ⟨s, s1, s2, -⟩ := (hc i hi).standard j _ (List.getElem?_eq_getElem hj)
    obtain ⟨s', s1', s2', -⟩ := (hc' i hi).standard j _ (List.getElem?_eq_getElem hj)
    rw [s1] at s1'
    cases s1'
    rw [s2, s2']
  · unfold PhaseModel.size at l l'
    rw [List.getElem?_eq_none (by omega), List.getElem?_eq_none (by omega)]

/-- What is added in a reaction with a titrant that conserves elements and charge is zero in total. -/
theorem added_reaction {parse : Str → Option Formula} {db : List EquilibriumSpecs.Species} {calls : List (Call ℝ (Props ℝ))} {sys : System}
    {env : Env ℝ (Props ℝ)} {w : List ℝ} {pr : Problem} {n q : List ℝ} {props : Props ℝ}
    (h : Calculated parse db calls sys env w pr n q props) (c : Nat → ℝ) (k : Nat) (f : Formula)
    (hk : (run parse db calls).titrantsImplicit[k]? = some f) (ν : List Rat) (m : Rat) (hν : ν.length = sys.species.length)
    (hel : ∀ e ∈ sys.elements, ChemicalSystem.total (elementContent · e.symbol) sys.species ν + formulaContent f e.symbol * m = 0)
    (hch : ChemicalSystem.total (·.charge) sys.species ν + f.charge * m = 0) :
    ∑ j ∈ Finset.range sys.species.length, ((ν.getD j 0 : Rat) : ℝ) * added pr.A c j + m * addedTo sys.elements c f = 0 := by
  obtain ⟨phases, hphases⟩ := h.system
  have hkl : k < (run parse db calls).titrantsImplicit.length := (List.getElem?_eq_some_iff.1 hk).1
  obtain ⟨M, hM⟩ : ∃ M, M = (run parse db calls).titrantsImplicit.length := ⟨_, rfl⟩
  have key := stationary_dot pr.A ((List.range (sys.species.length + M)).map (added pr.A c)) (fun j => j < sys.species.length + M)
    ⟨c, by
      intro j hj
      rw [List.getD_eq_getElem _ _ (by simpa using hj), List.getElem_map, List.getElem_range]
      rfl⟩ (ν ++ unit M k m)
    (by intro row hrow; rw [rows_Aex phases sys hphases _ _ h.matrix row hrow, List.length_append, hν, unit_length, hM])
    (by
      rw [mulVec_Aex phases sys hphases _ h.symbols h.formulas pr.A h.matrix _ _ hν]
      intro r hr
      unfold titrants at hr
      rcases List.mem_append.1 hr with hr | hr
      · obtain ⟨e, he, rfl⟩ := List.mem_map.1 hr
        rw [hM, zip_unit (fun f : Formula => formulaContent f e.symbol) _ _ _ _ hk]
        exact hel e he
      · rw [List.mem_singleton] at hr
        rw [hr, hM, zip_unit (fun f : Formula => f.charge) _ _ _ _ hk]
        exact hch)
    (by
      intro j hj
      by_contra hlt
      rw [List.getD_eq_default _ _ (by rw [List.length_append, hν, unit_length]; omega)] at hj
      exact hj rfl)
  rw [List.length_append, hν, unit_length, Finset.sum_range_add] at key
  rw [← added_titrant h c k f hk, ← h.species, ← key]
  congr 1
  · apply Finset.sum_congr rfl
    intro j hj
    have hj := Finset.mem_range.1 hj
    rw [List.getD_append _ _ _ _ (by omega), List.getD_eq_getElem (List.map _ _) _ (by simp; omega), List.getElem_map, List.getElem_range]
  · rw [Finset.sum_eq_single k]
    · rw [List.getD_append_right _ _ _ _ (by omega), hν, Nat.add_sub_cancel_left, unit_getD _ _ _ _ (by omega), if_pos rfl,
        List.getD_eq_getElem (List.map _ _) _ (by simp; omega), List.getElem_map, List.getElem_range]
    · intro i _ hij
      rw [List.getD_append_right _ _ _ _ (by omega), hν, Nat.add_sub_cancel_left, unit_getD _ _ _ _ (by omega), if_neg hij]; simp
    · intro h0; exact absurd (Finset.mem_range.2 (by omega)) h0

/-- **C109 (the electron).** pE and Eh take the chemical potential of the electron to be that of the conventional scale, with zero for the standard
potential, so they fix the reference of charge: if the same state is calculated for the same pE or Eh with another reference, and there is a
half-reaction with `m` electrons between species that are not at a bound, nothing was added for the electrons. -/
theorem C109_electron (parse : Str → Option Formula) (db : List EquilibriumSpecs.Species) (before after : List (Call ℝ (Props ℝ)))
    (call : Call ℝ (Props ℝ)) (hcall : call = .pE ∨ call = .Eh) (hok : (step parse (run parse db before) call).2 = true) (sys : System)
    (env env' : Env ℝ (Props ℝ)) (h10 : env.ln10 = Real.log 10) (henv : env' = { env with G0 := env'.G0 }) (w : List ℝ) (pr : Problem)
    (n q q' : List ℝ) (props props' : Props ℝ) (h : Calculated parse db (before ++ call :: after) sys env w pr n q props)
    (c d : Nat → ℝ) (phases' : List (PhaseModel ℝ)) (ho : Other pr.T pr.P (added pr.A c) (added pr.A d) pr.phases phases') (uq' : List ℝ)
    (h' : Calculated parse db (before ++ call :: after) sys env' w { pr with phases := phases', uq := uq' } n q' props')
    (ha : props'.ln_a = props.ln_a) :
    ∃ electron, parse c!"e-" = some electron ∧
      ∀ (ν : List Rat) (m : Rat), ν.length = sys.species.length → (∀ j < sys.species.length, ν.getD j 0 ≠ 0 → Inside pr n j) →
        (∀ e ∈ sys.elements, ChemicalSystem.total (elementContent · e.symbol) sys.species ν + formulaContent electron e.symbol * m = 0) →
        ChemicalSystem.total (·.charge) sys.species ν + electron.charge * m = 0 → m ≠ 0 → addedTo sys.elements c electron = 0 := by
  obtain ⟨el, v, e1, e2, e3⟩ := C108_redox_partial parse db before after call hcall hok sys env h10 w pr n q props h
  obtain ⟨el', v', e1', e2', e3'⟩ := C108_redox_partial parse db before after call hcall hok sys env' (by rw [henv]; exact h10) w _ n q' props' h'
  obtain ⟨f, hf, idx, hc⟩ := redox_constraint parse db before after call hcall hok
  obtain ⟨k, fn, k1, -⟩ := (potential_at h).2 _ hc
  rw [e1] at e1' hf
  cases e1'
  cases hf
  rw [e2] at e2'
  cases e2'
  refine ⟨el, e1, ?_⟩
  intro ν m hν hin hel hch hm
  have r := e3 ν m hν hin hel hch
  have r' := e3' ν m hν hin hel hch
  have eF : env'.F = env.F := by rw [henv]
  rw [eF, ha] at r'
  dsimp only at r'
  obtain ⟨old, hold, hup⟩ := h.equilibrium.2.1
  obtain ⟨p'', h'', hj, -⟩ := C109_properties pr.R pr.phases phases' h.proper.sizes h.proper.nonempty false old hold pr.T pr.P _ _ ho n
    h.equilibrium.1.species props hup
  have hG : props'.G0 = p''.G0 := standard_unique h'.proper ⟨old, ((frame_other ho).2.2.2.2 _).2 hold, h''⟩ h'.equilibrium.2.1
  have sum : ∑ j ∈ Finset.range sys.species.length, ((ν.getD j 0 : Rat) : ℝ) * (props'.G0.getD j 0 + pr.R * pr.T * props.ln_a.getD j 0) =
      ∑ j ∈ Finset.range sys.species.length, ((ν.getD j 0 : Rat) : ℝ) * (props.G0.getD j 0 + pr.R * pr.T * props.ln_a.getD j 0) +
      ∑ j ∈ Finset.range sys.species.length, ((ν.getD j 0 : Rat) : ℝ) * added pr.A c j := by
    rw [← Finset.sum_add_distrib]
    apply Finset.sum_congr rfl
    intro j hjr
    rw [hG, (hj j (by rw [← h.species]; exact Finset.mem_range.1 hjr)).1]
    ring
  have hz := added_reaction h c k el k1 ν m hν hel hch
  have hm : (m : ℝ) ≠ 0 := by exact_mod_cast hm
  have : (m : ℝ) * addedTo sys.elements c el = 0 := by
    rcases hcall with rfl | rfl
    · simp only [if_true] at r r'
      linarith
    · simp only [Bool.false_eq_true, if_false] at r r'
      linarith
  rcases mul_eq_zero.1 this with h0 | h0
  · exact absurd h0 hm
  · exact h0

end Constraints

section Examples

open EquilibriumSpecs EquilibriumSetup ChemicalSystem Imposed

theorem added_two (r s : List Rat) (c : Nat → ℝ) (j : Nat) : added [r, s] c j = c 0 * ((r.getD j 0 : Rat) : ℝ) + c 1 * ((s.getD j 0 : Rat) : ℝ) := by
  simp [added, Finset.sum_range_succ]

theorem added_three (r s t : List Rat) (c : Nat → ℝ) (j : Nat) : added [r, s, t] c j =
    c 0 * ((r.getD j 0 : Rat) : ℝ) + c 1 * ((s.getD j 0 : Rat) : ℝ) + c 2 * ((t.getD j 0 : Rat) : ℝ) := by
  simp [added, Finset.sum_range_succ]

/-- A substance with the given constants. -/
noncomputable def standardOf (g h : ℝ) : ℝ → ℝ → Option (Std ℝ) := fun T P => (constant 0 T P).map fun s => { s with G0 := s.G0 + g, H0 := s.H0 + h }

/-- A phase with two substances whose constants are zero, and the same phase with other constants. -/
theorem other_pair (names : List (Aqueous.Species ℝ)) (a b : Activity.Model) (T P : ℝ) (g h : Nat → ℝ) :
    Other T P g h [phase [constant 0, constant 0] names a b] [phase [standardOf (g 0) (h 0), standardOf (g 1) (h 1)] names a b] := by
  refine ⟨rfl, ?_⟩
  intro i ph ph' e e'
  rcases i with _ | i
  · simp only [List.getElem?_cons_zero, Option.some.injEq] at e e'
    subst e; subst e'
    refine ⟨rfl, rfl, rfl, rfl, ?_⟩
    intro j f f' e e'
    rcases j with _ | _ | j
    · simp [phase] at e e'; subst e; subst e'; rfl
    · simp [phase] at e e'; subst e; subst e'; rfl
    · simp [phase] at e
  · simp at e

/-- The isomers with other constants: the hypotheses of `C109_equilibrium`, `C109_same` and `C109_reactions` are met, and one mole of each is in
equilibrium. -/
example (c d : Nat → ℝ) : ∃ pr', OtherReference c d isomers pr' ∧ (∃ props, Equilibrium pr' [1, 1] [] props) ∧
    balance isomers.A [1, -1] 0 = 0 := by
  have ho := other_pair [solute c!"X", solute c!"Y"] Activity.idealSolution Activity.idealSolution 300 100000 (added isomers.A c) (added isomers.A d)
  have hr : OtherReference c d isomers { isomers with phases := [phase [standardOf (added isomers.A c 0) (added isomers.A d 0),
      standardOf (added isomers.A c 1) (added isomers.A d 1)] [solute c!"X", solute c!"Y"] Activity.idealSolution Activity.idealSolution] } :=
    ⟨ho, ⟨rfl, fun k hk => absurd hk (Nat.not_lt_zero k)⟩, rfl⟩
  exact ⟨_, hr, (C109_same c d isomers _ isomers_regular.toProper hr [1, 1] []).1 isomers_equilibrium, by
    simp [balance, isomers, Finset.sum_range_succ]⟩

/-- Solution of an acid with another reference: the hypotheses of `C109_activities` are met, with any numbers for H, O and charge. -/
example (c d : Nat → ℝ) : ∃ (v : ℝ) (env' : Env ℝ (Props ℝ)) (pr' : Problem) (props' : Props ℝ),
    (∀ sp T P, env'.G0 sp T P = some (addedTo acidSystem.elements c sp.formula)) ∧
    Calculated parseProton database acidCalls acidSystem env' [300, 100000, v] pr' [9, 1] [0] props' ∧
    pr'.phases = [phase [standardOf (c 0 * 2 + c 1) (d 0 * 2 + d 1), standardOf (c 0 + c 2) (d 0 + d 2)] [solute c!"H2O(aq)", solute c!"H+"]
      Activity.idealSolution Activity.idealSolution] := by
  obtain ⟨v, props, h, -⟩ := C108_barrier_wrong
  have ho := other_pair [solute c!"H2O(aq)", solute c!"H+"] Activity.idealSolution Activity.idealSolution 300 100000
    (added (acid 9 1 v).A c) (added (acid 9 1 v).A d)
  obtain ⟨pr', props', e, h', -⟩ := C109_activities parseProton database acidCalls (by simp [acidCalls, NoPotential]) acidSystem acidEnv _ _ _ _ _ h c d _ ho
    { acidEnv with G0 := fun sp T P => some (0 + addedTo acidSystem.elements c sp.formula) } rfl (fun _ _ _ => rfl)
  refine ⟨v, _, pr', props', fun _ _ _ => by dsimp only; rw [zero_add], h', ?_⟩
  rw [e]
  simp [acid, added_three]

/-- Ions of iron at a given pE: with the same numbers for iron but another one for charge, the state is not the same, so the hypotheses of `C109_electron` are met
and calls of pE cannot be allowed in `C109_activities`. -/
example (c d : Nat → ℝ) (hc : c 1 ≠ 0) : ∃ (v : ℝ) (props : Props ℝ),
    Calculated Imposed.parseElectron [] ironCalls ironSystem acidEnv [300, 100000, v] (iron v) [1, 10] [0] props ∧
    ∀ (phases' : List (PhaseModel ℝ)) (uq' q' : List ℝ) (props' : Props ℝ),
      Other 300 100000 (added (iron v).A c) (added (iron v).A d) (iron v).phases phases' → props'.ln_a = props.ln_a →
      ¬ Calculated Imposed.parseElectron [] ironCalls ironSystem acidEnv [300, 100000, v] { iron v with phases := phases', uq := uq' } [1, 10] q' props' := by
  obtain ⟨v, props, -, h⟩ := iron_calculated
  refine ⟨v, props, h, ?_⟩
  intro phases' uq' q' props' ho ha h'
  have e : ironCalls = ironCalls.dropLast ++ .pE :: [] := rfl
  rw [e] at h h'
  obtain ⟨el, h1, h3⟩ := C109_electron Imposed.parseElectron [] _ [] .pE (Or.inl rfl) (by decide +kernel) ironSystem acidEnv acidEnv rfl rfl _ _ _ _ q' _ props' h
    c d phases' ho uq' h' ha
  have hel : Imposed.electron = el := by simpa [Imposed.parseElectron] using h1
  subst hel
  have := h3 [-1, 1] 1 (by decide +kernel) (by
    intro j hj _ u
    have hj : j < 2 := hj
    refine ⟨fun hu => ?_, fun hu => ?_⟩
    · interval_cases j <;> simp [iron, acid] at hu <;> subst hu <;> norm_num
    · interval_cases j <;> simp [iron, acid] at hu) (by decide +kernel) (by decide +kernel) (by norm_num)
  have e : addedTo ironSystem.elements c Imposed.electron = - c 1 := by
    have e0 : formulaContent Imposed.electron c!"Fe" = 0 := by decide +kernel
    have e1 : ironSystem.elements = [Fe] := rfl
    unfold addedTo
    rw [e1]
    simp only [Fe, List.map_cons, List.map_nil, List.length_singleton, Finset.sum_range_one, List.getD_cons_zero, e0]
    simp [Imposed.electron]
  rw [e] at this
  exact hc (neg_eq_zero.1 this)

end Examples

end Verif.Reference
