import Verif.Spec.ChemicalProps

/-!
# Lemmas for C32 and C33
-/

namespace Verif.ChemicalProps

open ArraySerialization (Props write)

variable {K : Type}

theorem seg_length (a : List K) (b s : Nat) (h : b + s ≤ a.length) : (seg a b s).length = s := by
  unfold seg; rw [List.length_take, List.length_drop]; omega

theorem getElem?_seg (a : List K) (b s k : Nat) : (seg a b s)[k]? = if k < s then a[b + k]? else none := by
  unfold seg
  rw [List.getElem?_take]
  by_cases h : k < s
  · rw [if_pos h, if_pos h, List.getElem?_drop]
  · rw [if_neg h, if_neg h]

theorem getElem?_write (a : List K) (b : Nat) (v : List K) (k : Nat) (h : b + v.length ≤ a.length) :
    (write a b v)[k]? = if b ≤ k ∧ k < b + v.length then v[k - b]? else a[k]? := by
  unfold write
  have hl : (a.take b).length = b := by rw [List.length_take]; omega
  by_cases h1 : k < b
  · rw [if_neg (by omega), List.append_assoc, List.getElem?_append_left (by omega), List.getElem?_take, if_pos h1]
  · by_cases h2 : k < b + v.length
    · rw [if_pos (by omega), List.append_assoc, List.getElem?_append_right (by omega), hl, List.getElem?_append_left (by omega)]
    · rw [if_neg (by omega), List.getElem?_append_right (by rw [List.length_append, hl]; omega), List.length_append, hl,
        List.getElem?_drop]
      congr 1; omega

theorem write_length (a : List K) (b : Nat) (v : List K) (h : b + v.length ≤ a.length) : (write a b v).length = a.length := by
  unfold write
  rw [List.length_append, List.length_append, List.length_take, List.length_drop]
  omega

theorem seg_write_same (a : List K) (b : Nat) (v : List K) (h : b + v.length ≤ a.length) : seg (write a b v) b v.length = v := by
  apply List.ext_getElem?
  intro k
  rw [getElem?_seg, getElem?_write _ _ _ _ h]
  by_cases hk : k < v.length
  · rw [if_pos hk, if_pos (by omega)]; congr 1; omega
  · rw [if_neg hk, List.getElem?_eq_none (by omega)]

theorem seg_write_other (a : List K) (b : Nat) (v : List K) (b' s' : Nat) (h : b + v.length ≤ a.length)
    (hd : b + v.length ≤ b' ∨ b' + s' ≤ b) : seg (write a b v) b' s' = seg a b' s' := by
  apply List.ext_getElem?
  intro k
  rw [getElem?_seg, getElem?_seg]
  by_cases hk : k < s'
  · rw [if_pos hk, if_pos hk, getElem?_write _ _ _ _ h, if_neg (by omega)]
  · rw [if_neg hk, if_neg hk]

/-! ### Positions of the blocks -/

theorem sizeAt_of_lt (phases : List (PhaseModel K)) (i : Nat) (h : i < phases.length) : sizeAt phases i = phases[i].size := by
  unfold sizeAt; rw [List.getElem?_eq_getElem h]; rfl

theorem before_succ (phases : List (PhaseModel K)) (i : Nat) : before phases (i + 1) = before phases i + sizeAt phases i := by
  unfold before sizeAt
  rw [List.take_add_one]
  cases phases[i]? <;> simp

theorem before_mono (phases : List (PhaseModel K)) {i j : Nat} (h : i ≤ j) : before phases i ≤ before phases j := by
  induction h with
  | refl => exact Nat.le_refl _
  | step _ ih => rw [before_succ]; omega

theorem before_length (phases : List (PhaseModel K)) : before phases phases.length = count phases := by
  unfold before count; rw [List.take_length]

theorem before_le (phases : List (PhaseModel K)) (i : Nat) (h : i < phases.length) :
    before phases i + sizeAt phases i ≤ count phases := by
  rw [← before_succ, ← before_length]; exact before_mono _ h

theorem blocks_disjoint (phases : List (PhaseModel K)) (i j : Nat) (h : i ≠ j) :
    before phases i + sizeAt phases i ≤ before phases j ∨ before phases j + sizeAt phases j ≤ before phases i := by
  rw [← before_succ, ← before_succ]
  rcases Nat.lt_or_gt_of_ne h with h | h
  · exact Or.inl (before_mono _ h)
  · exact Or.inr (before_mono _ h)

/-! ### Views -/

/-- The arrays of a phase have one entry for each species. -/
structure Sized (size : Nat) (d : PhaseData K) : Prop where
  n : d.n.length = size
  x : d.x.length = size
  G0 : d.G0.length = size
  H0 : d.H0.length = size
  V0 : d.V0.length = size
  Cp0 : d.Cp0.length = size
  Cv0 : d.Cv0.length = size
  ln_g : d.ln_g.length = size
  ln_a : d.ln_a.length = size
  u : d.u.length = size

theorem view_sized [Zero K] (phases : List (PhaseModel K)) (p : Props K) (h : Shape phases p) (i : Nat) (hi : i < phases.length) :
    Sized (sizeAt phases i) (view phases p i) := by
  have hb := before_le phases i hi
  have hs := h.perSpecies
  simp only [List.mem_cons, List.not_mem_nil, or_false, forall_eq_or_imp, forall_eq] at hs
  obtain ⟨h1, h2, h3, h4, h5, h6, h7, h8, h9, h10⟩ := hs
  constructor <;> exact seg_length _ _ _ (by omega)

theorem put_shape (phases : List (PhaseModel K)) (p : Props K) (h : Shape phases p) (i : Nat) (hi : i < phases.length) (d : PhaseData K)
    (hd : Sized (sizeAt phases i) d) : Shape phases (put phases p i d) := by
  have hb := before_le phases i hi
  have hs := h.perSpecies
  have hp := h.perPhase
  simp only [List.mem_cons, List.not_mem_nil, or_false, forall_eq_or_imp, forall_eq] at hs hp
  obtain ⟨h1, h2, h3, h4, h5, h6, h7, h8, h9, h10⟩ := hs
  obtain ⟨d1, d2, d3, d4, d5, d6, d7, d8, d9, d10⟩ := hd
  constructor
  · simp only [List.mem_cons, List.not_mem_nil, or_false, forall_eq_or_imp, forall_eq, put, List.length_set]
    exact hp
  · simp only [List.mem_cons, List.not_mem_nil, or_false, forall_eq_or_imp, forall_eq, put]
    have key : ∀ (a v : List K), a.length = count phases → v.length = sizeAt phases i →
        (write a (before phases i) v).length = count phases := fun a v ha hv => by rw [write_length a _ v (by omega), ha]
    exact ⟨key _ _ h1 d1, key _ _ h2 d2, key _ _ h3 d3, key _ _ h4 d4, key _ _ h5 d5, key _ _ h6 d6, key _ _ h7 d7, key _ _ h8 d8,
      key _ _ h9 d9, key _ _ h10 d10⟩

theorem getD_set_self [Zero K] (l : List K) (i : Nat) (v : K) (h : i < l.length) : (l.set i v).getD i 0 = v := by
  simp [h]

theorem getD_set_ne [Zero K] (l : List K) (i j : Nat) (v : K) (h : i ≠ j) : (l.set i v).getD j 0 = l.getD j 0 := by
  rw [List.getD_eq_getElem?_getD, List.getD_eq_getElem?_getD, List.getElem?_set_ne h]

theorem view_put_same [Zero K] (phases : List (PhaseModel K)) (p : Props K) (h : Shape phases p) (i : Nat) (hi : i < phases.length)
    (d : PhaseData K) (hd : Sized (sizeAt phases i) d) : view phases (put phases p i d) i = d := by
  have hb := before_le phases i hi
  have hs := h.perSpecies
  have hp := h.perPhase
  simp only [List.mem_cons, List.not_mem_nil, or_false, forall_eq_or_imp, forall_eq] at hs hp
  obtain ⟨h1, h2, h3, h4, h5, h6, h7, h8, h9, h10⟩ := hs
  obtain ⟨p1, p2, p3, p4, p5, p6, p7, p8, p9, p10⟩ := hp
  obtain ⟨d1, d2, d3, d4, d5, d6, d7, d8, d9, d10⟩ := hd
  have key : ∀ (a v : List K), a.length = count phases → v.length = sizeAt phases i →
      seg (write a (before phases i) v) (before phases i) (sizeAt phases i) = v := by
    intro a v ha hv
    rw [← hv]; exact seg_write_same a _ v (by omega)
  have kp : ∀ (a : List K) (v : K), a.length = phases.length → (a.set i v).getD i 0 = v := fun a v ha => getD_set_self a i v (by omega)
  cases d
  simp only [view, put]
  congr 1 <;> first | exact kp _ _ (by assumption) | exact key _ _ (by assumption) (by assumption)

theorem view_put_other [Zero K] (phases : List (PhaseModel K)) (p : Props K) (h : Shape phases p) (i j : Nat) (hi : i < phases.length)
    (hij : i ≠ j) (d : PhaseData K) (hd : Sized (sizeAt phases i) d) : view phases (put phases p i d) j = view phases p j := by
  have hb := before_le phases i hi
  have hdis := blocks_disjoint phases i j hij
  have hs := h.perSpecies
  simp only [List.mem_cons, List.not_mem_nil, or_false, forall_eq_or_imp, forall_eq] at hs
  obtain ⟨h1, h2, h3, h4, h5, h6, h7, h8, h9, h10⟩ := hs
  obtain ⟨d1, d2, d3, d4, d5, d6, d7, d8, d9, d10⟩ := hd
  have key : ∀ (a v : List K), a.length = count phases → v.length = sizeAt phases i →
      seg (write a (before phases i) v) (before phases j) (sizeAt phases j) = seg a (before phases j) (sizeAt phases j) := by
    intro a v ha hv
    exact seg_write_other a _ v _ _ (by omega) (by rw [hv]; exact hdis)
  have kp : ∀ (a : List K) (v : K), (a.set i v).getD j 0 = a.getD j 0 := fun a v => getD_set_ne a i j v hij
  simp only [view, put]
  congr 1 <;> first | exact kp _ _ | exact key _ _ (by assumption) (by assumption)

/-- Every array is made of the blocks of the phases. -/
theorem blocks_cover (phases : List (PhaseModel K)) (a : List K) (h : a.length = count phases) :
    (List.range phases.length).flatMap (fun i => seg a (before phases i) (sizeAt phases i)) = a := by
  have key : ∀ m, m ≤ phases.length →
      (List.range m).flatMap (fun i => seg a (before phases i) (sizeAt phases i)) = a.take (before phases m) := by
    intro m
    induction m with
    | zero => intro _; simp [before]
    | succ m ih =>
      intro hm
      rw [List.range_succ, List.flatMap_append, ih (by omega), List.flatMap_singleton, before_succ]
      have := before_le phases m (by omega)
      unfold seg
      rw [← List.take_add]
  rw [key _ (Nat.le_refl _), before_length, ← h, List.take_length]

/-! ### One phase -/

theorem stdLoop_frame (T P : K) : ∀ (fs : List (K → K → Option (Std K))) (i : Nat) (d : PhaseData K),
    let r := (stdLoop T P fs i d).1
    r.T = d.T ∧ r.P = d.P ∧ r.n = d.n ∧ r.x = d.x ∧ r.ln_g = d.ln_g ∧ r.ln_a = d.ln_a ∧ r.u = d.u ∧
    r.G0.length = d.G0.length ∧ r.H0.length = d.H0.length ∧ r.V0.length = d.V0.length ∧ r.Cp0.length = d.Cp0.length ∧
    r.Cv0.length = d.Cv0.length := by
  intro fs
  induction fs with
  | nil => intro i d; simp [stdLoop]
  | cons f fs ih =>
    intro i d
    simp only [stdLoop]
    cases f T P with
    | none => simp
    | some s =>
      have := ih (i + 1) (d.setStd i s)
      simp only [PhaseData.setStd, List.length_set] at this ⊢
      exact this

theorem stdLoop_ok (T P : K) : ∀ (fs : List (K → K → Option (Std K))) (i : Nat) (d : PhaseData K) (size : Nat), i + fs.length = size →
    d.G0.length = size → d.H0.length = size → d.V0.length = size → d.Cp0.length = size → d.Cv0.length = size →
    (stdLoop T P fs i d).2 = true →
    (∀ j < i, (stdLoop T P fs i d).1.G0[j]? = d.G0[j]? ∧ (stdLoop T P fs i d).1.H0[j]? = d.H0[j]? ∧
      (stdLoop T P fs i d).1.V0[j]? = d.V0[j]? ∧ (stdLoop T P fs i d).1.Cp0[j]? = d.Cp0[j]? ∧
      (stdLoop T P fs i d).1.Cv0[j]? = d.Cv0[j]?) ∧
    ∀ j f, fs[j]? = some f → ∃ s, f T P = some s ∧ (stdLoop T P fs i d).1.G0[i + j]? = some s.G0 ∧
      (stdLoop T P fs i d).1.H0[i + j]? = some s.H0 ∧ (stdLoop T P fs i d).1.V0[i + j]? = some s.V0 ∧
      (stdLoop T P fs i d).1.Cp0[i + j]? = some s.Cp0 ∧ (stdLoop T P fs i d).1.Cv0[i + j]? = some s.Cv0 := by
  intro fs
  induction fs with
  | nil => intro i d size _ _ _ _ _ _ _; simp [stdLoop]
  | cons f fs ih =>
    intro i d size hsz h1 h2 h3 h4 h5 hok
    rw [List.length_cons] at hsz
    simp only [stdLoop] at hok ⊢
    cases hf : f T P with
    | none => rw [hf] at hok; cases hok
    | some s =>
      rw [hf] at hok
      simp only at hok ⊢
      obtain ⟨a, b⟩ := ih (i + 1) (d.setStd i s) size (by omega) (by simpa [PhaseData.setStd] using h1)
        (by simpa [PhaseData.setStd] using h2) (by simpa [PhaseData.setStd] using h3) (by simpa [PhaseData.setStd] using h4)
        (by simpa [PhaseData.setStd] using h5) hok
      constructor
      · intro j hj
        obtain ⟨a1, a2, a3, a4, a5⟩ := a j (by omega)
        rw [a1, a2, a3, a4, a5]
        have hne : i ≠ j := by omega
        simp only [PhaseData.setStd, List.getElem?_set_ne hne, and_self]
      · intro j g hg
        cases j with
        | zero =>
          simp only [List.getElem?_cons_zero, Option.some.injEq] at hg
          subst hg
          obtain ⟨a1, a2, a3, a4, a5⟩ := a i (by omega)
          refine ⟨s, hf, ?_⟩
          simp only [Nat.add_zero]
          rw [a1, a2, a3, a4, a5]
          refine ⟨?_, ?_, ?_, ?_, ?_⟩ <;> (simp only [PhaseData.setStd]; rw [List.getElem?_set_self (by omega)])
        | succ j =>
          rw [List.getElem?_cons_succ] at hg
          obtain ⟨s', b1, b2⟩ := b j g hg
          refine ⟨s', b1, ?_⟩
          rw [show i + (j + 1) = i + 1 + j by omega]
          exact b2

theorem stdLoop_true (T P : K) : ∀ (fs : List (K → K → Option (Std K))) (i : Nat) (d : PhaseData K), (∀ f ∈ fs, (f T P).isSome) →
    (stdLoop T P fs i d).2 = true := by
  intro fs
  induction fs with
  | nil => intro i d _; rfl
  | cons f fs ih =>
    intro i d h
    simp only [stdLoop]
    have := h f List.mem_cons_self
    cases hf : f T P with
    | none => rw [hf] at this; cases this
    | some s => exact ih _ _ (fun f hf => h f (List.mem_cons_of_mem _ hf))

variable [LinearOrder K]

theorem foldl_min_le (l : List K) (a : K) : l.foldl min a ≤ a ∧ (∀ z ∈ l, l.foldl min a ≤ z) ∧ (l.foldl min a = a ∨ l.foldl min a ∈ l) := by
  induction l generalizing a with
  | nil => simp
  | cons b l ih =>
    rw [List.foldl_cons]
    obtain ⟨h1, h2, h3⟩ := ih (min a b)
    refine ⟨h1.trans (min_le_left _ _), ?_, ?_⟩
    · intro z hz
      rcases List.mem_cons.1 hz with rfl | hz
      · exact h1.trans (min_le_right _ _)
      · exact h2 z hz
    · rcases h3 with h3 | h3
      · rcases min_choice a b with h | h
        · left; rw [h3, h]
        · right; rw [h3, h]; exact List.mem_cons_self
      · right; exact List.mem_cons_of_mem _ h3

theorem minCoeff_zero [Zero K] (l : List K) (hl : l ≠ []) : minCoeff l = 0 ↔ (0 : K) ∈ l ∧ ∀ z ∈ l, 0 ≤ z := by
  match l, hl with
  | a :: l, _ =>
    rw [show minCoeff (a :: l) = l.foldl min a from rfl]
    obtain ⟨h1, h2, h3⟩ := foldl_min_le l a
    constructor
    · intro h
      rw [h] at h1 h2 h3
      constructor
      · rcases h3 with h3 | h3
        · rw [← h3]; exact List.mem_cons_self
        · exact List.mem_cons_of_mem _ h3
      · intro z hz
        rcases List.mem_cons.1 hz with rfl | hz
        · exact h1
        · exact h2 z hz
    · rintro ⟨h4, h5⟩
      apply le_antisymm
      · rcases List.mem_cons.1 h4 with h4 | h4
        · rw [h4]; exact h1
        · exact h2 _ h4
      · rcases h3 with h3 | h3
        · rw [h3]; exact h5 a List.mem_cons_self
        · exact h5 _ (List.mem_cons_of_mem _ h3)

variable [Field K]

theorem phaseUpdate_sized (R : K) (ph : PhaseModel K) (hk : KeepsSize ph.activity ∧ KeepsSize ph.ideal) (useIdeal : Bool) (T P : K)
    (n : List K) (hn : n.length = ph.size) (d : PhaseData K) (hd : Sized ph.size d) :
    Sized ph.size (phaseUpdate R ph useIdeal T P n d).1 := by
  obtain ⟨d1, d2, d3, d4, d5, d6, d7, d8, d9, d10⟩ := hd
  unfold phaseUpdate
  dsimp only
  have hf := stdLoop_frame T P ph.species 0 { d with T := T, P := P, n := n }
  dsimp only at hf
  generalize stdLoop T P ph.species 0 { d with T := T, P := P, n := n } = r at hf ⊢
  obtain ⟨-, -, f3, f4, f5, f6, f7, f8, f9, f10, f11, f12⟩ := hf
  have s0 : Sized ph.size r.1 := by
    constructor <;> (first | rw [f3] | rw [f4] | rw [f5] | rw [f6] | rw [f7] | rw [f8] | rw [f9] | rw [f10] | rw [f11] | rw [f12]) <;> omega
  by_cases h1 : r.2 = false
  · rw [if_pos h1]; exact s0
  · rw [if_neg h1]
    generalize hx : (if n.sum = 0 then List.replicate ph.size (if ph.size = 1 then (1 : K) else 0) else n.map (fun y => y / n.sum)) = x
    have hxl : x.length = ph.size := by
      rw [← hx]; split_ifs <;> simp [hn]
    have s1 : Sized ph.size { r.1 with nsum := n.sum, x := x } := ⟨s0.1, hxl, s0.3, s0.4, s0.5, s0.6, s0.7, s0.8, s0.9, s0.10⟩
    by_cases h2 : minCoeff x = 0
    · rw [if_pos h2]; exact s1
    · rw [if_neg h2]
      generalize ha : (if n.sum = 0 then (({ r.1 with nsum := n.sum, x := x } : PhaseData K).aprops.zero, true)
        else (if useIdeal = true then ph.ideal else ph.activity) T P x ({ r.1 with nsum := n.sum, x := x } : PhaseData K).aprops) = a
      have hal : a.1.ln_g.length = ph.size ∧ a.1.ln_a.length = ph.size := by
        rw [← ha]
        by_cases h0 : n.sum = 0
        · rw [if_pos h0]
          simp only [AProps.zero, PhaseData.aprops, List.length_map]
          exact ⟨s0.8, s0.9⟩
        · rw [if_neg h0]
          have : KeepsSize (if useIdeal = true then ph.ideal else ph.activity) := by
            split_ifs
            · exact hk.2
            · exact hk.1
          obtain ⟨e1, e2⟩ := this T P x ({ r.1 with nsum := n.sum, x := x } : PhaseData K).aprops
          exact ⟨e1.trans s0.8, e2.trans s0.9⟩
      have s2 : Sized ph.size (({ r.1 with nsum := n.sum, x := x } : PhaseData K).setAprops a.1) :=
        ⟨s0.1, hxl, s0.3, s0.4, s0.5, s0.6, s0.7, hal.1, hal.2, s0.10⟩
      by_cases h3 : a.2 = false
      · rw [if_pos h3]; exact s2
      · rw [if_neg h3]
        refine ⟨s2.1, s2.2, s2.3, s2.4, s2.5, s2.6, s2.7, s2.8, s2.9, ?_⟩
        simp only [List.length_zipWith]
        rw [s2.3, s2.9, min_self]

theorem phaseUpdate_computed (R : K) (ph : PhaseModel K) (hne : ph.size ≠ 0) (useIdeal : Bool) (T P : K)
    (n : List K) (hn : n.length = ph.size) (d : PhaseData K) (hd : Sized ph.size d) (hok : (phaseUpdate R ph useIdeal T P n d).2 = true) :
    Computed R ph useIdeal T P n (phaseUpdate R ph useIdeal T P n d).1 := by
  obtain ⟨d1, d2, d3, d4, d5, d6, d7, d8, d9, d10⟩ := hd
  unfold phaseUpdate at hok ⊢
  dsimp only at hok ⊢
  have hf := stdLoop_frame T P ph.species 0 { d with T := T, P := P, n := n }
  have hs := stdLoop_ok T P ph.species 0 { d with T := T, P := P, n := n } ph.size (by simp [PhaseModel.size]) d3 d4 d5 d6 d7
  dsimp only at hf
  generalize stdLoop T P ph.species 0 { d with T := T, P := P, n := n } = r at hf hs hok ⊢
  obtain ⟨f1, f2, f3, f4, f5, f6, f7, f8, f9, f10, f11, f12⟩ := hf
  by_cases h1 : r.2 = false
  · rw [if_pos h1] at hok; cases hok
  · rw [if_neg h1] at hok ⊢
    have hs' := (hs (by simpa using h1)).2
    generalize hx : (if n.sum = 0 then List.replicate ph.size (if ph.size = 1 then (1 : K) else 0) else n.map (fun y => y / n.sum)) = x at hok ⊢
    have hxl : x.length = ph.size := by
      rw [← hx]; split_ifs <;> simp [hn]
    have hxne : x ≠ [] := by rintro rfl; exact hne hxl.symm
    by_cases h2 : minCoeff x = 0
    · rw [if_pos h2] at hok; cases hok
    · rw [if_neg h2] at hok ⊢
      generalize ha : (if n.sum = 0 then (({ r.1 with nsum := n.sum, x := x } : PhaseData K).aprops.zero, true)
        else (if useIdeal = true then ph.ideal else ph.activity) T P x ({ r.1 with nsum := n.sum, x := x } : PhaseData K).aprops) = a at hok ⊢
      by_cases h3 : a.2 = false
      · rw [if_pos h3] at hok; cases hok
      · rw [if_neg h3]
        have h2' := mt (minCoeff_zero x hxne).2 h2
        have hpure : n.sum = 0 → ph.size = 1 ∧ x = [1] := by
          intro h0
          rw [if_pos h0] at hx
          by_cases h4 : ph.size = 1
          · rw [h4] at hx; exact ⟨h4, by rw [← hx]; rfl⟩
          · exfalso
            apply h2'
            rw [if_neg h4] at hx
            rw [← hx]
            exact ⟨List.mem_replicate.2 ⟨hne, rfl⟩, fun z hz => by rw [(List.mem_replicate.1 hz).2]⟩
        refine ⟨f1, f2, f3, rfl, ?_, hpure, h2', ?_, ?_, ?_, rfl⟩
        · intro h0
          rw [if_neg h0] at hx
          exact hx.symm
        · intro i f hi
          obtain ⟨s, e⟩ := hs' i f hi
          refine ⟨s, ?_⟩
          rw [Nat.zero_add] at e
          exact e
        · intro h0
          rw [if_neg h0] at ha
          exact ⟨r.1.aprops, Eq.trans ha (Prod.ext rfl (by simpa using h3))⟩
        · intro h0
          rw [if_pos h0] at ha
          have hl := (hpure h0).1
          have e1 : r.1.ln_g.map (fun _ => (0 : K)) = [0] := by
            have : r.1.ln_g.length = 1 := by rw [f5, d8, hl]
            match r.1.ln_g, this with
            | [_], _ => rfl
          have e2 : r.1.ln_a.map (fun _ => (0 : K)) = [0] := by
            have : r.1.ln_a.length = 1 := by rw [f6, d9, hl]
            match r.1.ln_a, this with
            | [_], _ => rfl
          rw [← ha]
          simp only [PhaseData.aprops, PhaseData.setAprops, AProps.zero, e1, e2]

/-- When the computation for one phase succeeds. -/
theorem phaseUpdate_true [IsStrictOrderedRing K] (R : K) (ph : PhaseModel K) (useIdeal : Bool) (T P : K) (n : List K) (hn : n.length = ph.size) (hne : ph.size ≠ 0)
    (d : PhaseData K) (hstd : ∀ f ∈ ph.species, (f T P).isSome) (hact : ∀ x a, (ph.activity T P x a).2 = true ∧ (ph.ideal T P x a).2 = true)
    (hpos : ∀ y ∈ n, 0 < y) : (phaseUpdate R ph useIdeal T P n d).2 = true := by
  unfold phaseUpdate
  dsimp only
  have h1 := stdLoop_true T P ph.species 0 { d with T := T, P := P, n := n } hstd
  generalize stdLoop T P ph.species 0 { d with T := T, P := P, n := n } = r at h1 ⊢
  rw [if_neg (by simp [h1])]
  have hnn : n ≠ [] := by rintro rfl; exact hne hn.symm
  have hsum : 0 < n.sum := by
    clear hn h1
    induction n with
    | nil => exact absurd rfl hnn
    | cons a n ih =>
      rw [List.sum_cons]
      by_cases h : n = []
      · rw [h]; simpa using hpos a List.mem_cons_self
      · exact add_pos (hpos a List.mem_cons_self) (ih (fun y hy => hpos y (List.mem_cons_of_mem _ hy)) h)
  rw [if_neg hsum.ne']
  have hmin : ¬ minCoeff (n.map (fun y => y / n.sum)) = 0 := by
    rw [minCoeff_zero _ (by simpa using hnn)]
    rintro ⟨h, -⟩
    obtain ⟨y, hy, h⟩ := List.mem_map.1 h
    exact (div_pos (hpos y hy) hsum).ne' h
  rw [if_neg hmin, if_neg hsum.ne']
  rw [if_neg]
  rw [Bool.not_eq_false]
  split_ifs
  · exact (hact _ _).2
  · exact (hact _ _).1

/-! ### The loop over the phases -/

theorem updateLoop_spec (R : K) (phases : List (PhaseModel K)) (hm : ModelsOk phases) (useIdeal : Bool) (T P : K) (n : List K) :
    ∀ (done rest : List (PhaseModel K)), phases = done ++ rest → ∀ (p : Props K), Shape phases p →
    ∀ (p' : Props K) (ok : Bool), updateLoop R phases useIdeal T P n rest done.length (before phases done.length) p = .ok (p', ok) →
    Shape phases p' ∧ p'.T = p.T ∧ p'.P = p.P ∧ ∃ k, done.length ≤ k ∧ k ≤ phases.length ∧ (ok = true ↔ k = phases.length) ∧
      (∀ j, j < done.length ∨ k < j → view phases p' j = view phases p j) ∧
      (∀ j (hj : j < phases.length), done.length ≤ j → j ≤ k → before phases j + phases[j].size ≤ n.length ∧
        view phases p' j = (phaseUpdate R phases[j] useIdeal T P (seg n (before phases j) phases[j].size) (view phases p j)).1 ∧
        ((phaseUpdate R phases[j] useIdeal T P (seg n (before phases j) phases[j].size) (view phases p j)).2 = true ↔ j < k)) := by
  intro done rest
  induction rest generalizing done with
  | nil =>
    intro hph p hs p' ok h
    simp only [updateLoop, Res.ok.injEq, Prod.mk.injEq] at h
    obtain ⟨rfl, rfl⟩ := h
    have : phases.length = done.length := by rw [hph]; simp
    refine ⟨hs, rfl, rfl, done.length, Nat.le_refl _, by omega, by simp [this], fun _ _ => rfl, fun j hj h1 _ => ?_⟩
    omega
  | cons ph rest ih =>
    intro hph p hs p' ok h
    have hlt : done.length < phases.length := by rw [hph]; simp
    have hget : phases[done.length] = ph := by
      simp only [hph]
      rw [List.getElem_append_right (Nat.le_refl _)]
      simp
    have hsz : sizeAt phases done.length = ph.size := by rw [sizeAt_of_lt _ _ hlt, hget]
    simp only [updateLoop] at h
    by_cases hlen : n.length < before phases done.length + ph.size
    · rw [if_pos hlen] at h; cases h
    · rw [if_neg hlen] at h
      have hk := hm ph (by rw [hph]; simp)
      have hv := view_sized phases p hs done.length hlt
      rw [hsz] at hv
      have hr := phaseUpdate_sized R ph hk useIdeal T P (seg n (before phases done.length) ph.size) (seg_length _ _ _ (by omega))
        (view phases p done.length) hv
      generalize hu : phaseUpdate R ph useIdeal T P (seg n (before phases done.length) ph.size) (view phases p done.length) = r at h hr
      have hr' : Sized (sizeAt phases done.length) r.1 := by rw [hsz]; exact hr
      have hs1 := put_shape phases p hs done.length hlt r.1 hr'
      have v1 := view_put_same phases p hs done.length hlt r.1 hr'
      have v2 := fun j hj => view_put_other phases p hs done.length j hlt hj r.1 hr'
      by_cases hok : r.2 = true
      · rw [if_pos hok] at h
        have hb : before phases (done ++ [ph]).length = before phases done.length + ph.size := by
          rw [List.length_append, List.length_singleton, before_succ, hsz]
        have hl : (done ++ [ph]).length = done.length + 1 := by simp
        obtain ⟨a1, a2, a3, k, a4, a5, a6, a7, a8⟩ := ih (done ++ [ph]) (by rw [hph]; simp) (put phases p done.length r.1) hs1 p' ok
          (by rw [hb, hl]; exact h)
        rw [hl] at a4 a7 a8
        refine ⟨a1, a2, a3, k, by omega, a5, a6, ?_, ?_⟩
        · intro j hj
          rw [a7 j (by omega)]
          exact v2 j (by omega)
        · intro j hj h1 h2
          by_cases hjd : j = done.length
          · subst hjd
            rw [a7 done.length (by omega), v1, hget, hu]
            exact ⟨by omega, rfl, by simp [hok]; omega⟩
          · obtain ⟨b1, b2, b3⟩ := a8 j hj (by omega) h2
            rw [v2 j (Ne.symm hjd)] at b2 b3
            exact ⟨b1, b2, b3⟩
      · rw [if_neg hok] at h
        simp only [Res.ok.injEq, Prod.mk.injEq] at h
        obtain ⟨rfl, rfl⟩ := h
        refine ⟨hs1, rfl, rfl, done.length, Nat.le_refl _, by omega, by simp; omega, ?_, ?_⟩
        · intro j hj
          exact v2 j (by omega)
        · intro j hj h1 h2
          have : j = done.length := by omega
          subst this
          rw [v1, hget, hu]
          exact ⟨by omega, rfl, by simp [hok]⟩

theorem updateLoop_ok (R : K) (phases : List (PhaseModel K)) (useIdeal : Bool) (T P : K) (n : List K) (hn : n.length = count phases) :
    ∀ (done rest : List (PhaseModel K)), phases = done ++ rest → ∀ (p : Props K),
    ∃ r, updateLoop R phases useIdeal T P n rest done.length (before phases done.length) p = .ok r := by
  intro done rest
  induction rest generalizing done with
  | nil => intro _ p; exact ⟨_, rfl⟩
  | cons ph rest ih =>
    intro hph p
    have hlt : done.length < phases.length := by rw [hph]; simp
    have hget : phases[done.length] = ph := by
      simp only [hph]
      rw [List.getElem_append_right (Nat.le_refl _)]
      simp
    have hsz : sizeAt phases done.length = ph.size := by rw [sizeAt_of_lt _ _ hlt, hget]
    have hb := before_le phases done.length hlt
    simp only [updateLoop]
    rw [if_neg (by omega)]
    split_ifs
    · have hb : before phases (done ++ [ph]).length = before phases done.length + ph.size := by
          rw [List.length_append, List.length_singleton, before_succ, hsz]
      have hl : (done ++ [ph]).length = done.length + 1 := by simp
      have := ih (done ++ [ph]) (by rw [hph]; simp) (put phases p done.length
        (phaseUpdate R ph useIdeal T P (seg n (before phases done.length) ph.size) (view phases p done.length)).1)
      rw [hb, hl] at this
      exact this
    · exact ⟨_, rfl⟩

end Verif.ChemicalProps
