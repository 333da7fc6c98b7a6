import Verif.Spec.Copies
import Verif.Theorems.Subsystems
import Verif.Theorems.Scaling

/-!
# C121: a phase given twice
-/

namespace Verif.Copies

open ChemicalProps IdealEquilibrium PhaseOrder Subsystems Scaling
open ArraySerialization (Props)

theorem share_amounts (f : ℝ) (a : Part) : (share f a).species.map Unknown.amount = times f (a.species.map Unknown.amount) := by
  simp [share, times]

theorem share_updated (c : Problem) (f : ℝ) (hf : f ≠ 0) (a : Part) (old new : PhaseData ℝ)
    (h : phaseUpdate c.R a.model false c.T c.P (a.species.map Unknown.amount) old = (new, true)) :
    phaseUpdate c.R (share f a).model false c.T c.P ((share f a).species.map Unknown.amount) old = (larger f new, true) := by
  rw [share_amounts]
  obtain ⟨h1, h2⟩ := phaseUpdate_times c.R a.model false c.T c.P f hf (a.species.map Unknown.amount) old
  rw [h] at h1 h2
  exact Prod.ext (h2 rfl) h1

/-- Entries of an unknown with another amount. -/
noncomputable def scale (f : ℝ) (X : List (Unknown × ℝ)) : List (Unknown × ℝ) := X.map fun p => ({ p.1 with amount := f * p.1.amount }, p.2)

theorem scale_sum (f : ℝ) (X : List (Unknown × ℝ)) (i : Nat) : ((scale f X).map fun x => ((x.1.column.getD i 0 : Rat) : ℝ) * x.1.amount).sum =
    f * (X.map fun x => ((x.1.column.getD i 0 : Rat) : ℝ) * x.1.amount).sum := by
  induction X with
  | nil => simp [scale]
  | cons p X ih =>
    simp only [scale, List.map_cons, List.sum_cons] at ih ⊢
    rw [ih]
    ring

theorem entries_share (c : Problem) (hb : c.eps * c.factor = 0) (f : ℝ) (a : Part) (old new : PhaseData ℝ) :
    entries c [(share f a, old, larger f new)] [] = scale f (entries c [(a, old, new)] []) := by
  unfold entries scale
  simp only [List.flatMap_cons, List.flatMap_nil, List.append_nil, List.map_nil, hb, zero_div, sub_zero, share, larger]
  rw [List.zipWith_map_left, List.map_zipWith]

theorem composed_scale (m : Nat) (y : Nat → ℝ) (x : Unknown) (v : ℝ) : composed m y { x with amount := v } = composed m y x := by
  rfl

/-- The conditions for an unknown with another amount, if its residual vanishes. -/
theorem good_of_zero {m : Nat} {y : Nat → ℝ} (p : Unknown × ℝ) (h : p.2 = composed m y p.1) :
    (0 < p.2 - ∑ i ∈ Finset.range m, y i * ((p.1.column.getD i 0 : Rat) : ℝ) → ∃ v : Rat, p.1.lower = some v ∧ p.1.amount = (v : ℝ)) ∧
    (p.2 - ∑ i ∈ Finset.range m, y i * ((p.1.column.getD i 0 : Rat) : ℝ) < 0 → ∃ v : Rat, p.1.upper = some v ∧ p.1.amount = (v : ℝ)) := by
  have e : p.2 - ∑ i ∈ Finset.range m, y i * ((p.1.column.getD i 0 : Rat) : ℝ) = 0 := by
    rw [h]
    exact sub_self _
  rw [e]
  exact ⟨fun h => absurd h (lt_irrefl _), fun h => absurd h (lt_irrefl _)⟩

theorem good_split {b : List ℝ} {E X : List (Unknown × ℝ)} {y : Nat → ℝ} (f : ℝ) (h : Good b (E ++ X) y) (hfree : ∀ p ∈ E, Free p.1)
    (h1 : ∀ p ∈ scale f E, InBounds p.1) (h2 : ∀ p ∈ scale (1 - f) E, InBounds p.1) : Good b (scale f E ++ (scale (1 - f) E ++ X)) y := by
  have hz : ∀ p ∈ E, p.2 = composed b.length y p.1 := fun p hp => free_residual h p (List.mem_append_left _ hp) (hfree p hp)
  have hzs : ∀ g, ∀ p ∈ scale g E, p.2 = composed b.length y p.1 := by
    intro g p hp
    obtain ⟨p', hp', rfl⟩ := List.mem_map.1 hp
    exact hz p' hp'
  obtain ⟨a1, a2, a3, a4⟩ := h
  refine ⟨?_, ?_, ?_, ?_⟩
  · intro i hi
    rw [← a1 i hi]
    simp only [List.map_append, List.sum_append, scale_sum]
    ring
  · intro x hx
    rcases List.mem_append.1 hx with hx | hx
    · exact (h1 x hx).1
    rcases List.mem_append.1 hx with hx | hx
    · exact (h2 x hx).1
    · exact a2 x (List.mem_append_right _ hx)
  · intro x hx
    rcases List.mem_append.1 hx with hx | hx
    · exact (h1 x hx).2
    rcases List.mem_append.1 hx with hx | hx
    · exact (h2 x hx).2
    · exact a3 x (List.mem_append_right _ hx)
  · intro x hx
    rcases List.mem_append.1 hx with hx | hx
    · exact good_of_zero x (hzs _ x hx)
    rcases List.mem_append.1 hx with hx | hx
    · exact good_of_zero x (hzs _ x hx)
    · exact a4 x (List.mem_append_right _ hx)

theorem good_join {b : List ℝ} {E X : List (Unknown × ℝ)} {y : Nat → ℝ} (f : ℝ) (h : Good b (scale f E ++ (scale (1 - f) E ++ X)) y)
    (hfree : ∀ p ∈ scale f E, Free p.1) (h1 : ∀ p ∈ E, InBounds p.1) : Good b (E ++ X) y := by
  have hz : ∀ p ∈ E, p.2 = composed b.length y p.1 := by
    intro p hp
    have hp' : (({ p.1 with amount := f * p.1.amount } : Unknown), p.2) ∈ scale f E :=
      List.mem_map_of_mem (f := fun p : Unknown × ℝ => (({ p.1 with amount := f * p.1.amount } : Unknown), p.2)) hp
    have := free_residual h (({ p.1 with amount := f * p.1.amount } : Unknown), p.2) (List.mem_append_left _ hp') (hfree _ hp')
    exact this
  obtain ⟨a1, a2, a3, a4⟩ := h
  refine ⟨?_, ?_, ?_, ?_⟩
  · intro i hi
    rw [← a1 i hi]
    simp only [List.map_append, List.sum_append, scale_sum]
    ring
  · intro x hx
    rcases List.mem_append.1 hx with hx | hx
    · exact (h1 x hx).1
    · exact a2 x (List.mem_append_right _ (List.mem_append_right _ hx))
  · intro x hx
    rcases List.mem_append.1 hx with hx | hx
    · exact (h1 x hx).2
    · exact a3 x (List.mem_append_right _ (List.mem_append_right _ hx))
  · intro x hx
    rcases List.mem_append.1 hx with hx | hx
    · exact good_of_zero x (hz x hx)
    · exact a4 x (List.mem_append_right _ (List.mem_append_right _ hx))

theorem entries_cons (c : Problem) (d : Part × PhaseData ℝ × PhaseData ℝ) (L : Parts) (t : List (Unknown × ℝ)) :
    entries c (d :: L) t = entries c [d] [] ++ entries c L t := by
  simp [entries]

theorem entries_mem (c : Problem) (a : Part) (old new : PhaseData ℝ) (p : Unknown × ℝ) (hp : p ∈ entries c [(a, old, new)] []) : p.1 ∈ a.species := by
  simp only [entries, List.flatMap_cons, List.flatMap_nil, List.append_nil, List.map_nil] at hp
  obtain ⟨i, hi, h⟩ := List.mem_iff_getElem.1 hp
  rw [List.getElem_zipWith] at h
  rw [← h]
  exact List.getElem_mem _

theorem cons_fst (L : Parts) (a : Part) (p : List Part) (h : L.map (·.1) = a :: p) : ∃ old new L', L = (a, old, new) :: L' ∧ L'.map (·.1) = p := by
  match L, h with
  | (a', old, new) :: L', h =>
    rw [List.map_cons] at h
    injection h with h1 h2
    exact ⟨old, new, L', by rw [← h1], h2⟩

/-- **C121 (dividing a phase).** Let a state be an equilibrium, without barrier term, and let the species of one of its phases be away from their bounds. Divide the amounts of this
phase between two copies of it, in any ratio, within the bounds. The result is an equilibrium of the system that has both copies, with the same chemical potentials
of the elements; the copies have all intensive properties of the phase, and the other phases keep all properties. -/
theorem C121_divided_partial (c : Problem) (hb : c.eps * c.factor = 0) (a : Part) (parts : List Part) (t : List (Unknown × ℝ))
    (hm : ModelsOk ((a :: parts).map Part.model)) (hsize : ∀ p ∈ a :: parts, p.species.length = p.model.size) (props : Props ℝ) (y : Nat → ℝ)
    (h : EquilibriumWith (problem c (a :: parts) t) (PhaseOrder.amounts (a :: parts)) (t.map (·.1.amount)) props y) (f : ℝ) (h0 : 0 < f) (h1 : f < 1)
    (hfree : AllFree a) (hf : ∀ x ∈ (share f a).species, InBounds x) (hf' : ∀ x ∈ (share (1 - f) a).species, InBounds x) :
    ∃ props' d rest, EquilibriumWith (problem c (share f a :: share (1 - f) a :: parts) t) (PhaseOrder.amounts (share f a :: share (1 - f) a :: parts))
        (t.map (·.1.amount)) props' y ∧
      stored ((a :: parts).map Part.model) props = (a.model, d) :: rest ∧
      stored ((share f a :: share (1 - f) a :: parts).map Part.model) props' = (a.model, larger f d) :: (a.model, larger (1 - f) d) :: rest := by
  obtain ⟨L, e1, e2, e3, -, e4⟩ := with_parts c _ _ hm hsize props y h
  obtain ⟨old, new, L, rfl, rfl⟩ := cons_fst L _ _ e1
  rw [entries_cons] at e4
  have hup := e2 (a, old, new) List.mem_cons_self
  have k := good_split f e4 (fun p hp => hfree _ (entries_mem c a old new p hp))
    (by rw [← entries_share c hb]; exact fun p hp => hf _ (entries_mem c _ old _ p hp))
    (by rw [← entries_share c hb]; exact fun p hp => hf' _ (entries_mem c _ old _ p hp))
  rw [← entries_share c hb, ← entries_share c hb, ← entries_cons, ← entries_cons] at k
  have hm' : ModelsOk ((((share f a, old, larger f new) :: (share (1 - f) a, old, larger (1 - f) new) :: L).map (·.1)).map Part.model) := by
    intro ph hph
    simp only [List.map_cons, List.mem_cons] at hph
    apply hm
    rcases hph with rfl | rfl | hph
    · exact List.mem_cons_self
    · exact List.mem_cons_self
    · exact List.mem_cons_of_mem _ hph
  obtain ⟨props', g1, g2, -⟩ := with_of_parts c ((share f a, old, larger f new) :: (share (1 - f) a, old, larger (1 - f) new) :: L) t hm'
    (by
      intro d hd
      rcases List.mem_cons.1 hd with rfl | hd
      · simpa [share] using hsize a List.mem_cons_self
      rcases List.mem_cons.1 hd with rfl | hd
      · simpa [share] using hsize a List.mem_cons_self
      · exact hsize _ (List.mem_cons_of_mem _ (List.mem_map_of_mem hd)))
    (by
      intro d hd
      rcases List.mem_cons.1 hd with rfl | hd
      · exact ⟨hup.1, share_updated c f h0.ne' a old new hup.2⟩
      rcases List.mem_cons.1 hd with rfl | hd
      · exact ⟨hup.1, share_updated c (1 - f) (by linarith) a old new hup.2⟩
      · exact e2 d (List.mem_cons_of_mem _ hd)) y k
  exact ⟨props', new, L.map (fun t : Part × PhaseData ℝ × PhaseData ℝ => (t.1.model, t.2.2)), g1, e3, g2⟩

/-! ### Joining copies -/

/-- What is known of a phase after an update. -/
theorem updated_props (c : Problem) (ph : PhaseModel ℝ) (hne : ph.size ≠ 0) (n : List ℝ) (hn : n.length = ph.size) (hpos : ∀ y ∈ n, 0 < y) (old new : PhaseData ℝ)
    (hs : Sized ph.size old) (h : phaseUpdate c.R ph false c.T c.P n old = (new, true)) : Computed c.R ph false c.T c.P n new ∧ new.x = fractions n ∧
      ∃ o a, ph.activity c.T c.P (fractions n) o = (a, true) ∧ a.ln_a = new.ln_a := by
  have hc := phaseUpdate_computed c.R ph hne false c.T c.P n hn old hs (by rw [h])
  rw [h] at hc
  dsimp only at hc
  have hnn : n ≠ [] := by rintro rfl; exact hne hn.symm
  have hsum : n.sum ≠ 0 := (sum_pos' n hnn hpos).ne'
  have hx := hc.fractions hsum
  obtain ⟨o, ho⟩ := hc.activity hsum
  rw [hx] at ho
  exact ⟨hc, hx, o, _, ho, rfl⟩

theorem same_G0 (c : Problem) (ph : PhaseModel ℝ) (n n' : List ℝ) (new new' : PhaseData ℝ) (hs : Sized ph.size new) (hs' : Sized ph.size new')
    (h : Computed c.R ph false c.T c.P n new) (h' : Computed c.R ph false c.T c.P n' new') : new.G0 = new'.G0 := by
  have e1 : new.G0.length = ph.species.length := hs.G0
  have e2 : new'.G0.length = ph.species.length := hs'.G0
  apply List.ext_getElem?
  intro k
  by_cases hk : k < ph.species.length
  · obtain ⟨s, b1, b2, -⟩ := h.standard k _ (List.getElem?_eq_getElem hk)
    obtain ⟨s', b1', b2', -⟩ := h'.standard k _ (List.getElem?_eq_getElem hk)
    rw [b1] at b1'
    injection b1' with b
    rw [b2, b2', b]
  · rw [List.getElem?_eq_none (by omega), List.getElem?_eq_none (by omega)]

theorem zipWith_inj (k : ℝ) (hk : k ≠ 0) : ∀ (g a a' : List ℝ), a.length = g.length → a'.length = g.length →
    List.zipWith (fun g a => g + k * a) g a = List.zipWith (fun g a => g + k * a) g a' → a = a' := by
  intro g
  induction g with
  | nil =>
    intro a a' h h' _
    rw [List.length_nil, List.length_eq_zero_iff] at h h'
    rw [h, h']
  | cons x g ih =>
    intro a a' h h' e
    match a, a', h, h' with
    | z :: a, z' :: a', h, h' =>
      simp only [List.zipWith_cons_cons, List.cons.injEq] at e
      rw [ih a a' (by simpa using h) (by simpa using h') e.2]
      have : z = z' := mul_left_cancel₀ hk (by linarith [e.1])
      rw [this]

theorem same_composition (c : Problem) (hRT : c.R * c.T ≠ 0) (ph : PhaseModel ℝ) (hst : Stable ph c.T c.P) (hne : ph.size ≠ 0) (n n' : List ℝ) (hn : n.length = ph.size)
    (hn' : n'.length = ph.size) (hpos : ∀ y ∈ n, 0 < y) (hpos' : ∀ y ∈ n', 0 < y) (old new old' new' : PhaseData ℝ) (hs : Sized ph.size old)
    (hs' : Sized ph.size old') (hn1 : Sized ph.size new) (hn1' : Sized ph.size new')
    (h : phaseUpdate c.R ph false c.T c.P n old = (new, true)) (h' : phaseUpdate c.R ph false c.T c.P n' old' = (new', true)) (hu : new.u = new'.u) :
    fractions n = fractions n' ∧ new.ln_a = new'.ln_a := by
  obtain ⟨c1, -, o, a, ho, ha⟩ := updated_props c ph hne n hn hpos old new hs h
  obtain ⟨c1', -, o', a', ho', ha'⟩ := updated_props c ph hne n' hn' hpos' old' new' hs' h'
  have e := same_G0 c ph n n' new new' hn1 hn1' c1 c1'
  have hl : new.ln_a = new'.ln_a := by
    apply zipWith_inj (c.R * c.T) hRT new.G0 _ _ (by rw [hn1.G0, hn1.ln_a]) (by rw [hn1.G0, hn1'.ln_a])
    rw [← c1.potential, hu, c1'.potential, e]
  refine ⟨(hst.tangent n n' hn hn' hpos hpos' o o' a a' ho ho').2 ?_, hl⟩
  rw [ha, ha', hl]

theorem unknowns_ext : ∀ l l' : List Unknown, l.map Unknown.column = l'.map Unknown.column → l.map Unknown.lower = l'.map Unknown.lower →
    l.map Unknown.upper = l'.map Unknown.upper → l.map Unknown.amount = l'.map Unknown.amount → l = l' := by
  intro l
  induction l with
  | nil =>
    intro l' h _ _ _
    simpa using h.symm
  | cons x l ih =>
    intro l' h1 h2 h3 h4
    cases l' with
    | nil => simp at h1
    | cons x' l' =>
      simp only [List.map_cons, List.cons.injEq] at h1 h2 h3 h4
      rw [ih l' h1.2 h2.2 h3.2 h4.2]
      obtain ⟨a, b, d, e⟩ := x
      obtain ⟨a', b', d', e'⟩ := x'
      simp_all

theorem copy_share (a a' : Part) (h : Copy a a') (g : ℝ) (hg : a'.species.map Unknown.amount = times g (a.species.map Unknown.amount)) : a' = share g a := by
  obtain ⟨m', s'⟩ := a'
  obtain ⟨h1, h2, h3, h4⟩ := h
  dsimp only at h1 h2 h3 h4 hg
  unfold share
  subst h1
  congr 1
  apply unknowns_ext
  · rw [h2, List.map_map]; rfl
  · rw [h3, List.map_map]; rfl
  · rw [h4, List.map_map]; rfl
  · rw [hg, List.map_map, times, List.map_map]; rfl

theorem merge_share (a : Part) (g : ℝ) : merge a (share g a) = share (1 + g) a := by
  unfold merge share
  congr 1
  rw [List.zipWith_map_right]
  generalize a.species = l
  induction l with
  | nil => rfl
  | cons x l ih =>
    simp only [List.zipWith_cons_cons, List.map_cons, ih]
    congr 2
    ring

theorem share_share (a : Part) (f g : ℝ) : share f (share g a) = share (f * g) a := by
  simp [share, mul_assoc]

theorem share_one (a : Part) : share 1 a = a := by
  simp [share]

theorem larger_larger (f g : ℝ) (d : PhaseData ℝ) : larger f (larger g d) = larger (f * g) d := by
  simp [larger, times, mul_assoc]

theorem larger_one (d : PhaseData ℝ) : larger 1 d = d := by
  simp [larger, times]

theorem fractions_times (n n' : List ℝ) (hs : n.sum ≠ 0) (hs' : n'.sum ≠ 0) (h : fractions n = fractions n') : n' = times (n'.sum / n.sum) n := by
  have e : ∀ m : List ℝ, m.sum ≠ 0 → (fractions m).map (m.sum * ·) = m := by
    intro m hm
    unfold fractions
    rw [List.map_map]
    conv_rhs => rw [← List.map_id m]
    apply List.map_congr_left
    intro y _
    simp only [id, Function.comp]
    field_simp
  have e1 : times (n'.sum / n.sum) ((fractions n).map (n.sum * ·)) = (fractions n).map (n'.sum * ·) := by
    rw [times, List.map_map]
    apply List.map_congr_left
    intro y _
    simp only [Function.comp]
    field_simp
  rw [e n hs, h, e n' hs'] at e1
  exact e1.symm

theorem sized_new (c : Problem) (L : Parts) (hm : ModelsOk ((L.map (·.1)).map Part.model)) (hsize : ∀ t ∈ L, t.1.species.length = t.1.model.size) (h : Updated c L) :
    ∀ t ∈ L, Sized t.1.model.size t.2.2 := by
  intro t ht
  have := phaseUpdate_sized c.R t.1.model (hm _ (List.mem_map_of_mem (List.mem_map_of_mem ht))) false c.T c.P (t.1.species.map Unknown.amount)
    (by rw [List.length_map]; exact hsize t ht) t.2.1 (h t ht).1
  rwa [(h t ht).2] at this

theorem entries_getElem (c : Problem) (hb : c.eps * c.factor = 0) (a : Part) (old new : PhaseData ℝ) :
    entries c [(a, old, new)] [] = List.zipWith (fun x u => (x, u / (c.R * c.T))) a.species new.u := by
  unfold entries
  simp only [List.flatMap_cons, List.flatMap_nil, List.append_nil, List.map_nil, hb, zero_div, sub_zero]

theorem potentials_free {b : List ℝ} {X : List (Unknown × ℝ)} {y : Nat → ℝ} (h : Good b X y) (k : ℝ) : ∀ (S : List Unknown) (u : List ℝ), u.length = S.length →
    (∀ x ∈ S, Free x) → (∀ p ∈ List.zipWith (fun x u => (x, u / k)) S u, p ∈ X) → u.map (· / k) = S.map (composed b.length y) := by
  intro S
  induction S with
  | nil => intro u hu _ _; rw [List.length_nil, List.length_eq_zero_iff] at hu; subst hu; rfl
  | cons x S ih =>
    intro u hu hf hX
    match u, hu with
    | v :: u, hu =>
      rw [List.map_cons, List.map_cons, ih u (by simpa using hu) (fun x hx => hf x (List.mem_cons_of_mem _ hx)) (fun p hp => hX p (List.mem_cons_of_mem _ hp))]
      have := free_residual h (x, v / k) (hX _ List.mem_cons_self) (hf x List.mem_cons_self)
      rw [← this]

/-- **C121 (joining copies).** Let a state with two copies of a phase be an equilibrium, without barrier term; let the species of the copies have positive amounts away from
their bounds, and let the phase meet Gibbs' criterion (ideal solutions do, `C105_ideal_stable`). The copies have the same composition, and the state with one phase that has
the amounts of both is an equilibrium of the system with one copy, with the same chemical potentials of the elements and of the species. -/
theorem C121_joined_partial (c : Problem) (hb : c.eps * c.factor = 0) (hRT : 0 < c.R * c.T) (a a' : Part) (parts : List Part) (t : List (Unknown × ℝ))
    (hm : ModelsOk ((a :: a' :: parts).map Part.model)) (hsize : ∀ p ∈ a :: a' :: parts, p.species.length = p.model.size) (hne : a.model.size ≠ 0)
    (hcopy : Copy a a') (hst : Stable a.model c.T c.P) (props : Props ℝ) (y : Nat → ℝ)
    (h : EquilibriumWith (problem c (a :: a' :: parts) t) (PhaseOrder.amounts (a :: a' :: parts)) (t.map (·.1.amount)) props y)
    (hpos : AllPositive a) (hpos' : AllPositive a') (hfree : AllFree a) (hfree' : AllFree a') (hbound : ∀ x ∈ (merge a a').species, InBounds x) :
    ∃ props' d d' m rest, EquilibriumWith (problem c (merge a a' :: parts) t) (PhaseOrder.amounts (merge a a' :: parts)) (t.map (·.1.amount)) props' y ∧
      stored ((a :: a' :: parts).map Part.model) props = (a.model, d) :: (a.model, d') :: rest ∧
      stored ((merge a a' :: parts).map Part.model) props' = (a.model, m) :: rest ∧
      d.x = m.x ∧ d'.x = m.x ∧ d.ln_a = m.ln_a ∧ d'.ln_a = m.ln_a ∧ d.u = m.u ∧ d'.u = m.u := by
  obtain ⟨L, e1, e2, e3, -, e4⟩ := with_parts c _ _ hm hsize props y h
  obtain ⟨old, new, L, rfl, e1'⟩ := cons_fst L _ _ e1
  obtain ⟨old', new', L, rfl, rfl⟩ := cons_fst L _ _ e1'
  have hup := e2 (a, old, new) List.mem_cons_self
  have hup' := e2 (a', old', new') (List.mem_cons_of_mem _ List.mem_cons_self)
  have hsz := sized_new c _ (by rw [e1]; exact hm) (fun t ht => hsize _ (by rw [← e1]; exact List.mem_map_of_mem ht)) e2
  have hs1 : Sized a.model.size new := hsz (a, old, new) List.mem_cons_self
  have hs1' : Sized a'.model.size new' := hsz (a', old', new') (List.mem_cons_of_mem _ List.mem_cons_self)
  have l1 : a.species.length = a.model.size := hsize a List.mem_cons_self
  have l1' : a'.species.length = a'.model.size := hsize a' (List.mem_cons_of_mem _ List.mem_cons_self)
  rw [entries_cons, entries_cons c (a', old', new')] at e4
  -- the potentials are the same
  have p1 := potentials_free e4 (c.R * c.T) a.species new.u (by rw [l1]; exact hs1.u) hfree (by
    rw [← entries_getElem c hb a old new]
    exact fun p hp => List.mem_append_left _ hp)
  have p2 := potentials_free e4 (c.R * c.T) a'.species new'.u (by rw [l1']; exact hs1'.u) hfree' (by
    rw [← entries_getElem c hb a' old' new']
    exact fun p hp => List.mem_append_right _ (List.mem_append_left _ hp))
  have hu : new.u = new'.u := by
    have : ∀ S : List Unknown, S.map (composed c.b.length y) = (S.map Unknown.column).map fun col => ∑ i ∈ Finset.range c.b.length, y i * ((col.getD i 0 : Rat) : ℝ) := by
      intro S
      rw [List.map_map]
      rfl
    rw [this] at p1 p2
    rw [hcopy.columns, ← p1] at p2
    exact (List.map_injective_iff.2 (fun u v huv => (div_left_inj' hRT.ne').1 huv) p2).symm
  have hpa : ∀ z ∈ a.species.map Unknown.amount, 0 < z := by
    intro z hz
    obtain ⟨x, hx, rfl⟩ := List.mem_map.1 hz
    exact hpos x hx
  have hpa' : ∀ z ∈ a'.species.map Unknown.amount, 0 < z := by
    intro z hz
    obtain ⟨x, hx, rfl⟩ := List.mem_map.1 hz
    exact hpos' x hx
  have lm : (a.species.map Unknown.amount).length = a.model.size := by rw [List.length_map, l1]
  have lm' : (a'.species.map Unknown.amount).length = a.model.size := by rw [List.length_map, l1', hcopy.model]
  have up' := hup'.2
  dsimp only at up'
  rw [hcopy.model] at up' hs1'
  have sz' := hup'.1
  dsimp only at sz'
  rw [hcopy.model] at sz'
  obtain ⟨hx, hl⟩ := same_composition c hRT.ne' a.model hst hne _ _ lm lm' hpa hpa' old new old' new' hup.1 sz' hs1 hs1' hup.2 up' hu
  have n1 : a.species.map Unknown.amount ≠ [] := by intro h0; rw [h0] at lm; exact hne lm.symm
  have n1' : a'.species.map Unknown.amount ≠ [] := by intro h0; rw [h0] at lm'; exact hne lm'.symm
  have s1 := sum_pos' _ n1 hpa
  have s1' := sum_pos' _ n1' hpa'
  have hsh := copy_share a a' hcopy _ (fractions_times _ _ s1.ne' s1'.ne' hx)
  generalize hg : (a'.species.map Unknown.amount).sum / (a.species.map Unknown.amount).sum = g at hsh
  have hg0 : 0 < g := by rw [← hg]; exact div_pos s1' s1
  have hx1 := (updated_props c a.model hne _ lm hpa old new hup.1 hup.2).2.1
  have hx1' := (updated_props c a.model hne _ lm' hpa' old' new' sz' up').2.1
  have hme : merge a a' = share (1 + g) a := by rw [hsh, merge_share]
  have g1 : (1 + g) ≠ 0 := by positivity
  -- entries
  have ea : entries c [(a, old, new)] [] = scale (1 / (1 + g)) (entries c [(merge a a', old, larger (1 + g) new)] []) := by
    rw [← entries_share c hb, larger_larger, hme, share_share, one_div, inv_mul_cancel₀ g1, share_one, larger_one]
  have ea' : entries c [(a', old', new')] [] = scale (1 - 1 / (1 + g)) (entries c [(merge a a', old, larger (1 + g) new)] []) := by
    rw [← entries_share c hb, larger_larger, hme, share_share]
    have : (1 - 1 / (1 + g)) * (1 + g) = g := by field_simp; ring
    rw [this, ← hsh, entries_getElem c hb, entries_getElem c hb]
    rw [← hu]
    rfl
  rw [ea, ea'] at e4
  have k := good_join (1 / (1 + g)) e4 (by rw [← ea]; exact fun p hp => hfree _ (entries_mem c a old new p hp))
    (fun p hp => hbound _ (entries_mem c _ old _ p hp))
  rw [← entries_cons] at k
  obtain ⟨props', q1, q2, -⟩ := with_of_parts c ((merge a a', old, larger (1 + g) new) :: L) t
    (by
      intro ph hph
      simp only [List.map_cons, List.mem_cons] at hph
      apply hm
      rcases hph with rfl | hph
      · exact List.mem_cons_self
      · exact List.mem_cons_of_mem _ (List.mem_cons_of_mem _ hph))
    (by
      intro d hd
      rcases List.mem_cons.1 hd with rfl | hd
      · rw [hme]
        simpa [share] using l1
      · exact hsize _ (List.mem_cons_of_mem _ (List.mem_cons_of_mem _ (List.mem_map_of_mem hd))))
    (by
      intro d hd
      rcases List.mem_cons.1 hd with rfl | hd
      · refine ⟨hup.1, ?_⟩
        have := share_updated c (1 + g) g1 a old new hup.2
        rw [← hme] at this
        exact this
      · exact e2 d (List.mem_cons_of_mem _ (List.mem_cons_of_mem _ hd))) y k
  refine ⟨props', new, new', larger (1 + g) new, L.map (fun t : Part × PhaseData ℝ × PhaseData ℝ => (t.1.model, t.2.2)), q1, ?_, q2, rfl, ?_, rfl, hl.symm, rfl, hu.symm⟩
  · rw [e3, List.map_cons, List.map_cons, hcopy.model]
  · rw [hx1', ← hx]
    exact hx1.symm

/-! ### With a barrier -/

theorem problem_swap (c : Problem) (a a' : Part) (parts : List Part) (t : List (Unknown × ℝ)) (h : Copy a a') :
    problem c (a' :: a :: parts) t = problem c (a :: a' :: parts) t := by
  have cols : ∀ (i : Nat) (l : List Unknown), l.map (fun x => x.column.getD i 0) = (l.map Unknown.column).map fun col => col.getD i 0 := by
    intro i l
    rw [List.map_map]
    rfl
  unfold problem unknowns
  simp only [List.map_cons, List.flatMap_cons, List.map_append, cols, h.columns, h.lower, h.upper, h.model]

/-- **C121 (with the barrier).** With the barrier term, and phases that meet Gibbs' criterion, both copies of a phase have the same amounts in every equilibrium. -/
theorem C121_alike_partial (c : Problem) (hb : 0 < c.eps * c.factor) (a a' : Part) (parts : List Part) (t : List (Unknown × ℝ))
    (hr : Regular (problem c (a :: a' :: parts) t)) (hsize : ∀ p ∈ a :: a' :: parts, p.species.length = p.model.size) (hcopy : Copy a a') (props : Props ℝ)
    (h : Equilibrium (problem c (a :: a' :: parts) t) (PhaseOrder.amounts (a :: a' :: parts)) (t.map (·.1.amount)) props) :
    a.species.map Unknown.amount = a'.species.map Unknown.amount := by
  obtain ⟨props', h', -⟩ := C111_equilibrium c (a :: a' :: parts) (a' :: a :: parts) (List.Perm.swap _ _ _) t hr.sizes hsize props h
  rw [problem_swap c a a' parts t hcopy] at h'
  have := C105_unique_amounts_partial (problem c (a :: a' :: parts) t) hr hb _ _ _ _ props props' h h'
  rw [amounts_eq, amounts_eq, List.flatMap_cons, List.flatMap_cons (x := a')] at this
  exact (List.append_inj this (by
    rw [List.length_map, List.length_map, hsize a List.mem_cons_self, hsize a' (List.mem_cons_of_mem _ List.mem_cons_self), hcopy.model])).1

theorem fractions_share (f : ℝ) (hf : f ≠ 0) (n : List ℝ) : fractions (times f n) = fractions n := by
  unfold fractions
  rw [times_sum, times, List.map_map]
  apply List.map_congr_left
  intro y _
  simp only [Function.comp]
  exact mul_div_mul_left _ _ hf

theorem entries_index (c : Problem) (a : Part) (old new : PhaseData ℝ) (L : Parts) (t : List (Unknown × ℝ)) (j : Nat) (hj : j < a.species.length) (hj' : j < new.u.length) :
    (a.species[j], new.u[j] / (c.R * c.T) - c.eps * c.factor / a.species[j].amount) ∈ entries c ((a, old, new) :: L) t := by
  rw [entries_cons]
  apply List.mem_append_left
  simp only [entries, List.flatMap_cons, List.flatMap_nil, List.append_nil, List.map_nil]
  rw [List.mem_iff_getElem]
  refine ⟨j, by rw [List.length_zipWith]; omega, ?_⟩
  rw [List.getElem_zipWith]

theorem barrier_differs (e f p q : ℝ) (he : e ≠ 0) (hf : 0 < f) (hf1 : f < 1) (hp : 0 < p) (hq : 0 < q) (hpq : p ≠ q)
    (h : e / p - e / q = e / (f * p) - e / (f * q)) : False := by
  have h2 : e / (f * p) - e / (f * q) = (e / p - e / q) / f := by
    field_simp
  rw [h2, eq_div_iff hf.ne'] at h
  have hz : e / p - e / q ≠ 0 := by
    intro hz
    apply hpq
    have : e / p = e / q := by linarith
    rw [div_eq_div_iff hp.ne' hq.ne'] at this
    exact (mul_left_cancel₀ he this).symm
  have : f = 1 := mul_left_cancel₀ hz (by rw [h, mul_one])
  linarith

/-- **C121 (fails with the barrier).** With the barrier term (it is on by default) the composition changes. Let two species of a phase have the same elements and different amounts, away from
their bounds. If a state is an equilibrium, then the state with this phase divided between two copies, in any ratio, is not, for any amounts of the elements. -/
theorem C121_barrier_wrong (c : Problem) (hb : c.eps * c.factor ≠ 0) (a : Part) (parts : List Part) (t : List (Unknown × ℝ))
    (hm : ModelsOk ((a :: parts).map Part.model)) (hsize : ∀ p ∈ a :: parts, p.species.length = p.model.size) (hne : a.model.size ≠ 0)
    (hfun : ∀ x old old' r r', a.model.activity c.T c.P x old = (r, true) → a.model.activity c.T c.P x old' = (r', true) → r.ln_a = r'.ln_a) (props : Props ℝ)
    (h : Equilibrium (problem c (a :: parts) t) (PhaseOrder.amounts (a :: parts)) (t.map (·.1.amount)) props) (hpos : AllPositive a) (f : ℝ) (h0 : 0 < f) (h1 : f < 1)
    (x x' : Unknown) (hx : x ∈ a.species) (hx' : x' ∈ a.species) (hcol : x.column = x'.column) (hdiff : x.amount ≠ x'.amount) (hfree : Free x) (hfree' : Free x')
    (hf : Free { x with amount := f * x.amount }) (hf' : Free { x' with amount := f * x'.amount }) :
    ∀ (b : List ℝ) (props' : Props ℝ), ¬ Equilibrium (problem { c with b := b } (share f a :: share (1 - f) a :: parts) t)
      (PhaseOrder.amounts (share f a :: share (1 - f) a :: parts)) (t.map (·.1.amount)) props' := by
  intro b props' h'
  obtain ⟨y, h⟩ := (equilibrium_iff _ _ _ _).1 h
  obtain ⟨y', h'⟩ := (equilibrium_iff _ _ _ _).1 h'
  obtain ⟨L, e1, e2, -, -, e4⟩ := with_parts c _ _ hm hsize props y h
  obtain ⟨old, new, L, rfl, rfl⟩ := cons_fst L _ _ e1
  have hm' : ModelsOk ((share f a :: share (1 - f) a :: L.map (·.1)).map Part.model) := by
    intro ph hph
    simp only [List.map_cons, List.mem_cons] at hph
    apply hm
    rcases hph with rfl | rfl | hph
    · exact List.mem_cons_self
    · exact List.mem_cons_self
    · exact List.mem_cons_of_mem _ hph
  have hsize' : ∀ p ∈ share f a :: share (1 - f) a :: L.map (·.1), p.species.length = p.model.size := by
    intro p hp
    simp only [List.mem_cons] at hp
    rcases hp with rfl | rfl | hp
    · simpa [share] using hsize a List.mem_cons_self
    · simpa [share] using hsize a List.mem_cons_self
    · exact hsize _ (List.mem_cons_of_mem _ hp)
  obtain ⟨L', d1, d2, -, -, d4⟩ := with_parts { c with b := b } _ _ hm' hsize' props' y' h'
  obtain ⟨old', new', L', rfl, d1'⟩ := cons_fst L' _ _ d1
  have hup := e2 (a, old, new) List.mem_cons_self
  have hup' := d2 (share f a, old', new') List.mem_cons_self
  have l1 : a.species.length = a.model.size := hsize a List.mem_cons_self
  have hs1 : Sized a.model.size new := sized_new c _ (by rw [e1]; exact hm) (fun t ht => hsize _ (by rw [← e1]; exact List.mem_map_of_mem ht)) e2 (a, old, new) List.mem_cons_self
  have hs1' : Sized a.model.size new' := sized_new { c with b := b } _ (by rw [d1]; exact hm') (fun t ht => hsize' _ (by rw [← d1]; exact List.mem_map_of_mem ht)) d2
    (share f a, old', new') List.mem_cons_self
  have lm : (a.species.map Unknown.amount).length = a.model.size := by rw [List.length_map, l1]
  have hpa : ∀ z ∈ a.species.map Unknown.amount, 0 < z := by
    intro z hz
    obtain ⟨x, hx, rfl⟩ := List.mem_map.1 hz
    exact hpos x hx
  have up' : phaseUpdate c.R a.model false c.T c.P (times f (a.species.map Unknown.amount)) old' = (new', true) := by
    rw [← share_amounts]
    exact hup'.2
  obtain ⟨c1, -, o, r, ho, hr⟩ := updated_props c a.model hne _ lm hpa old new hup.1 hup.2
  obtain ⟨c1', -, o', r', ho', hr'⟩ := updated_props c a.model hne (times f (a.species.map Unknown.amount)) (by rw [length_times]; exact lm)
    (by
      intro z hz
      obtain ⟨w, hw, rfl⟩ := List.mem_map.1 hz
      exact mul_pos h0 (hpa w hw)) old' new' hup'.1 up'
  rw [fractions_share f h0.ne'] at ho'
  have hu : new'.u = new.u := by
    rw [c1.potential, c1'.potential, same_G0 c a.model _ _ new new' hs1 hs1' c1 c1', ← hr, ← hr', hfun _ _ _ _ _ ho ho']
  have lu : new.u.length = a.species.length := by rw [l1]; exact hs1.u
  obtain ⟨j, hj, rfl⟩ := List.mem_iff_getElem.1 hx
  obtain ⟨k, hk, rfl⟩ := List.mem_iff_getElem.1 hx'
  have hjs : j < (share f a).species.length := by simpa [share] using hj
  have hks : k < (share f a).species.length := by simpa [share] using hk
  have sj : (share f a).species[j] = { a.species[j] with amount := f * a.species[j].amount } := by simp [share]
  have sk : (share f a).species[k] = { a.species[k] with amount := f * a.species[k].amount } := by simp [share]
  have q1 := free_residual e4 _ (entries_index c a old new L t j hj (by omega)) hfree
  have q2 := free_residual e4 _ (entries_index c a old new L t k hk (by omega)) hfree'
  have q3 := free_residual d4 _ (entries_index { c with b := b } (share f a) old' new' L' t j hjs (by rw [hu]; omega)) (by rw [sj]; exact hf)
  have q4 := free_residual d4 _ (entries_index { c with b := b } (share f a) old' new' L' t k hks (by rw [hu]; omega)) (by rw [sk]; exact hf')
  have cc : ∀ (m : Nat) (z : Nat → ℝ) (x x' : Unknown), x.column = x'.column → composed m z x = composed m z x' := by
    intro m z x x' h
    unfold composed
    rw [h]
  have w1 := q1.trans ((cc _ _ _ _ hcol).trans q2.symm)
  have w2 := q3.trans ((cc _ _ _ _ (by rw [sj, sk]; exact hcol)).trans q4.symm)
  dsimp only at w1 w2
  rw [sj, sk] at w2
  simp only [hu] at w2
  have pj := hpos _ hx
  have pk := hpos _ hx'
  exact barrier_differs (c.eps * c.factor) f a.species[j].amount a.species[k].amount hb h0 h1 pj pk hdiff (by linarith)

/-! ### The hypotheses are satisfiable -/

open Activity (gasConstant)

/-- A calculation at 300 K and 1 bar with one balance. -/
noncomputable def base (e b : ℝ) : Problem where
  phases := []
  R := gasConstant
  T := 300
  P := 100000
  eps := e
  factor := 1
  A := []
  b := [b]
  lower := []
  upper := []
  uq := []

noncomputable def solution (g : ℝ) : PhaseModel ℝ := phase [constant g, constant 0] [solute c!"X", solute c!"Y"] Activity.idealSolution Activity.idealSolution

/-- A solution of two isomers. -/
noncomputable def mixture (g m k : ℝ) : Part := ⟨solution g, [⟨[1], some (1 / 10 ^ 16), none, m⟩, ⟨[1], some (1 / 10 ^ 16), none, k⟩]⟩

/-- The difference of their Gibbs energies with which the amounts `m` and `k` are in equilibrium. -/
noncomputable def gap (e m k : ℝ) : ℝ := gasConstant * 300 * (Real.log (k / (m + k)) - Real.log (m / (m + k)) + e / m - e / k)

theorem solution_models (l : List (PhaseModel ℝ)) (h : ∀ ph ∈ l, ∃ g, ph = solution g) : ModelsOk l := by
  intro ph hph
  obtain ⟨g, rfl⟩ := h ph hph
  exact ⟨(activityFn_ideal _ (Or.inl rfl) _).2.1, (activityFn_ideal _ (Or.inl rfl) _).2.1⟩

theorem mixture_equilibrium (e m k : ℝ) (hm : 1 / 10 ^ 16 ≤ m) (hk : 1 / 10 ^ 16 ≤ k) :
    ∃ props, EquilibriumWith (problem (base e (m + k)) [mixture (gap e m k) m k] []) [m, k] [] props (fun _ => Real.log (k / (m + k)) - e / k) := by
  have hm0 : 0 < m := lt_of_lt_of_le (by norm_num) hm
  have hk0 : 0 < k := lt_of_lt_of_le (by norm_num) hk
  have hs : m + k ≠ 0 := by positivity
  have hpos : ∀ y ∈ ([m, k] : List ℝ), 0 < y := by simp [hm0, hk0]
  generalize hg : gap e m k = g
  generalize hpr : problem (base e (m + k)) [mixture g m k] [] = pr
  have hph : pr.phases = [solution g] := by rw [← hpr]; rfl
  have hproper : Proper pr := by
    refine { sizes := ?_, nonempty := ?_ }
    · rw [hph]
      exact solution_models _ (by simp)
    · rw [hph]
      intro ph h
      rw [List.mem_singleton] at h
      subst h
      simp [solution, phase, PhaseModel.size]
  have hcount : [m, k].length = count pr.phases := by rw [hph]; rfl
  have hRT : pr.R = gasConstant ∧ pr.T = 300 ∧ pr.P = 100000 := by rw [← hpr]; exact ⟨rfl, rfl, rfl⟩
  obtain ⟨props, h⟩ := has_exists pr hproper [m, k] hcount hpos
    (by rw [hph]; intro ph h f hf; rw [List.mem_singleton] at h; subst h; simp [solution, phase] at hf; rcases hf with rfl | rfl <;> rfl)
    (by rw [hph]; intro ph h; rw [List.mem_singleton] at h; subst h
        intro x a h1 h2 h3
        exact (activityFn_ideal _ (Or.inl rfl) _).2.2 _ _ x a h1 h2 h3)
  have hu := u_of_has pr hproper [m, k] hcount hpos props h (fun _ => [g, 0]) (fun _ x => x.map Real.log)
    (by
      rw [← hpr]
      intro i hi
      have hi : i < 1 := hi
      interval_cases i
      rfl)
    (by
      rw [← hpr]
      intro i hi x old a h
      have hi : i < 1 := hi
      interval_cases i
      simp only [problem, mixture, solution, phase, List.map_cons, List.getElem_cons_zero] at h
      unfold activityFn at h
      simp only [Activity.idealSolution, Res.bind_ok'] at h
      split_ifs at h
      · simp at h
      · simp only [Prod.mk.injEq, and_true] at h
        rw [← h])
  have hfr : fractions (block pr [m, k] 0) = [m / (m + k), k / (m + k)] := by
    simp [fractions, block, seg, hph, before, sizeAt, solution, phase, PhaseModel.size]
  have hu : props.u = [g + gasConstant * 300 * Real.log (m / (m + k)), 0 + gasConstant * 300 * Real.log (k / (m + k))] := by
    rw [hu, hph]
    simp only [List.length_singleton, List.range_one, List.flatMap_cons, List.flatMap_nil, hfr, hRT.1, hRT.2.1]
    simp
  have hgas : gasConstant * 300 ≠ 0 := by norm_num [gasConstant]
  refine ⟨props, ⟨hcount, by rw [← hpr]; rfl, ?_, ?_, ?_⟩, h, ?_⟩
  · rw [← hpr]
    intro i hi
    have hi : i < 1 := hi
    interval_cases i
    simp [balance, problem, base, mixture, unknowns, Finset.sum_range_succ]
  · rw [← hpr]
    intro j v hv
    rcases j with _ | _ | j <;> simp [problem, mixture, unknowns] at hv
    · subst hv; simpa using hm
    · subst hv; simpa using hk
  · rw [← hpr]
    intro j v hv
    rcases j with _ | _ | j <;> simp [problem, mixture, unknowns] at hv
  · have hgr : pr.gradient [m, k] props.u = [Real.log (k / (m + k)) - e / k, Real.log (k / (m + k)) - e / k] := by
      rw [hu, ← hpr]
      have e1 : (g + gasConstant * 300 * Real.log (m / (m + k))) / (gasConstant * 300) = Real.log (k / (m + k)) + e / m - e / k := by
        rw [← hg, gap, ← mul_add, mul_div_cancel_left₀ _ hgas]
        ring
      have e2 : (0 + gasConstant * 300 * Real.log (k / (m + k))) / (gasConstant * 300) = Real.log (k / (m + k)) := by
        rw [zero_add, mul_div_cancel_left₀ _ hgas]
      simp only [Problem.gradient, EquilibriumSetup.gradX, EquilibriumSetup.gradN, EquilibriumSetup.gradQ, problem, base,
        List.zipWith_cons_cons, List.zipWith_nil_left, List.map_nil, List.append_nil, e1, e2, List.cons.injEq, and_true]
      constructor <;> ring
    intro j hj
    have hj : j < 2 := hj
    dsimp only
    rw [hgr, ← hpr]
    interval_cases j <;> simp [problem, mixture, unknowns, base]

theorem mixture_sizes (l : List Part) (h : ∀ p ∈ l, ∃ g m k, p = mixture g m k) : ModelsOk (l.map Part.model) ∧ ∀ p ∈ l, p.species.length = p.model.size := by
  constructor
  · apply solution_models
    intro ph hph
    obtain ⟨p, hp, rfl⟩ := List.mem_map.1 hph
    obtain ⟨g, m, k, rfl⟩ := h p hp
    exact ⟨g, rfl⟩
  · intro p hp
    obtain ⟨g, m, k, rfl⟩ := h p hp
    rfl

theorem mixture_free (g m k : ℝ) (hm : 1 / 10 ^ 16 < m) (hk : 1 / 10 ^ 16 < k) : AllFree (mixture g m k) ∧ ∀ x ∈ (mixture g m k).species, InBounds x := by
  have e : ((1 / 10 ^ 16 : Rat) : ℝ) = 1 / 10 ^ 16 := by norm_num
  constructor
  · intro x hx
    simp only [mixture, List.mem_cons, List.not_mem_nil, or_false] at hx
    rcases hx with rfl | rfl
    · exact ⟨fun v hv h => by simp only [Option.some.injEq] at hv; subst hv; rw [e] at h; exact hm.ne' h, fun v hv => by simp at hv⟩
    · exact ⟨fun v hv h => by simp only [Option.some.injEq] at hv; subst hv; rw [e] at h; exact hk.ne' h, fun v hv => by simp at hv⟩
  · intro x hx
    simp only [mixture, List.mem_cons, List.not_mem_nil, or_false] at hx
    rcases hx with rfl | rfl
    · exact ⟨fun v hv => by simp only [Option.some.injEq] at hv; subst hv; rw [e]; exact hm.le, fun v hv => by simp at hv⟩
    · exact ⟨fun v hv => by simp only [Option.some.injEq] at hv; subst hv; rw [e]; exact hk.le, fun v hv => by simp at hv⟩

theorem share_mixture (f g m k : ℝ) : share f (mixture g m k) = mixture g (f * m) (f * k) := by
  simp [share, mixture]

/-- One mole and two moles of two isomers, divided into a quarter and three quarters: an equilibrium without the barrier; joined again, it is the state it was. -/
theorem divided_mixture : ∃ props y, EquilibriumWith (problem (base 0 3) [mixture (gap 0 1 2) (1 / 4) (1 / 2), mixture (gap 0 1 2) (3 / 4) (3 / 2)] [])
    [1 / 4, 1 / 2, 3 / 4, 3 / 2] [] props y := by
  obtain ⟨props, h⟩ := mixture_equilibrium 0 1 2 (by norm_num) (by norm_num)
  have hs := mixture_sizes [mixture (gap 0 1 2) 1 2] (by simp)
  have e1 : share (1 / 4) (mixture (gap 0 1 2) 1 2) = mixture (gap 0 1 2) (1 / 4) (1 / 2) := by rw [share_mixture]; norm_num
  have e2 : share (1 - 1 / 4) (mixture (gap 0 1 2) 1 2) = mixture (gap 0 1 2) (3 / 4) (3 / 2) := by rw [share_mixture]; norm_num
  obtain ⟨props', -, -, h', -⟩ := C121_divided_partial (base 0 (1 + 2)) (by simp [base]) (mixture (gap 0 1 2) 1 2) [] [] hs.1 hs.2 props _ h (1 / 4) (by norm_num) (by norm_num)
    (mixture_free _ _ _ (by norm_num) (by norm_num)).1
    (by rw [e1]; exact (mixture_free _ _ _ (by norm_num) (by norm_num)).2)
    (by rw [e2]; exact (mixture_free _ _ _ (by norm_num) (by norm_num)).2)
  rw [e1, e2] at h'
  have e3 : (1 + 2 : ℝ) = 3 := by norm_num
  rw [e3] at h'
  exact ⟨props', _, h'⟩

example : ∃ props, Equilibrium (problem (base 0 3) [merge (mixture (gap 0 1 2) (1 / 4) (1 / 2)) (mixture (gap 0 1 2) (3 / 4) (3 / 2))] []) [1 / 4 + 3 / 4, 1 / 2 + 3 / 2] [] props := by
  obtain ⟨props, y, h⟩ := divided_mixture
  have hs := mixture_sizes [mixture (gap 0 1 2) (1 / 4) (1 / 2), mixture (gap 0 1 2) (3 / 4) (3 / 2)] (by
    intro p hp
    simp only [List.mem_cons, List.not_mem_nil, or_false] at hp
    rcases hp with rfl | rfl <;> exact ⟨_, _, _, rfl⟩)
  have em : merge (mixture (gap 0 1 2) (1 / 4) (1 / 2)) (mixture (gap 0 1 2) (3 / 4) (3 / 2)) = mixture (gap 0 1 2) (1 / 4 + 3 / 4) (1 / 2 + 3 / 2) := by
    simp [merge, mixture]
  obtain ⟨props', -, -, -, -, h', -⟩ := C121_joined_partial (base 0 3) (by simp [base]) (by norm_num [base, gasConstant]) (mixture (gap 0 1 2) (1 / 4) (1 / 2))
    (mixture (gap 0 1 2) (3 / 4) (3 / 2)) [] [] hs.1 hs.2 (by simp [mixture, solution, phase, PhaseModel.size]) ⟨rfl, rfl, rfl, rfl⟩
    (C105_ideal_stable _ _ _ _ (Or.inl rfl) _ _) props y h
    (by intro x hx; simp only [mixture, List.mem_cons, List.not_mem_nil, or_false] at hx; rcases hx with rfl | rfl <;> norm_num)
    (by intro x hx; simp only [mixture, List.mem_cons, List.not_mem_nil, or_false] at hx; rcases hx with rfl | rfl <;> norm_num)
    (mixture_free _ _ _ (by norm_num) (by norm_num)).1 (mixture_free _ _ _ (by norm_num) (by norm_num)).1
    (by rw [em]; exact (mixture_free _ _ _ (by norm_num) (by norm_num)).2)
  exact ⟨props', (equilibrium_iff _ _ _ _).2 ⟨_, h'⟩⟩

/-- With the barrier, equal amounts in both copies are an equilibrium, and the theorem applies to it. -/
example : ∃ props, Equilibrium (problem (base (1 / 10 ^ 16) 6) [mixture (gap (1 / 10 ^ 16) 1 2) 1 2, mixture (gap (1 / 10 ^ 16) 1 2) 1 2] []) [1, 2, 1, 2] [] props ∧
    Regular (problem (base (1 / 10 ^ 16) 6) [mixture (gap (1 / 10 ^ 16) 1 2) 1 2, mixture (gap (1 / 10 ^ 16) 1 2) 1 2] []) := by
  obtain ⟨props, h⟩ := mixture_equilibrium (1 / 10 ^ 16) 1 2 (by norm_num) (by norm_num)
  have hs := mixture_sizes [mixture (gap (1 / 10 ^ 16) 1 2) 1 2, mixture (gap (1 / 10 ^ 16) 1 2) 1 2] (by
    intro p hp
    simp only [List.mem_cons, List.not_mem_nil, or_false] at hp
    rcases hp with rfl | rfl <;> exact ⟨_, _, _, rfl⟩)
  obtain ⟨both, h2, -⟩ := C115_together (base (1 / 10 ^ 16) (1 + 2)) (base (1 / 10 ^ 16) (1 + 2)) [mixture (gap (1 / 10 ^ 16) 1 2) 1 2] [mixture (gap (1 / 10 ^ 16) 1 2) 1 2] [] []
    hs.1 hs.2 (fun _ => 3) (by simp [withAmounts, base, List.range_succ]; norm_num) props props _ h h
  have e : withAmounts (base (1 / 10 ^ 16) (1 + 2)) (fun i => (base (1 / 10 ^ 16) (1 + 2)).b.getD i 0 + 3) = base (1 / 10 ^ 16) 6 := by
    simp [withAmounts, base, List.range_succ]; norm_num
  rw [e] at h2
  refine ⟨both, (equilibrium_iff _ _ _ _).2 ⟨_, h2⟩, ?_⟩
  refine { sizes := hs.1, nonempty := ?_, gas := ?_, barrier := ?_, stable := ?_, positive := ?_ }
  · intro ph hph
    simp only [problem, mixture, List.map_cons, List.map_nil, List.mem_cons, List.not_mem_nil, or_false, or_self] at hph
    subst hph
    simp [solution, phase, PhaseModel.size]
  · norm_num [problem, base, gasConstant]
  · norm_num [problem, base]
  · intro ph hph
    simp only [problem, mixture, List.map_cons, List.map_nil, List.mem_cons, List.not_mem_nil, or_false, or_self] at hph
    subst hph
    exact C105_ideal_stable _ _ _ _ (Or.inl rfl) _ _
  · intro j hj
    have hj : j < 4 := hj
    refine ⟨1 / 10 ^ 16, ?_, by norm_num⟩
    interval_cases j <;> rfl

/-- With the default options, one mole and two moles in equilibrium are not in equilibrium when they are halved between two copies of the solution. -/
example : (∃ props, Equilibrium (problem (base (1 / 10 ^ 16) 3) [mixture (gap (1 / 10 ^ 16) 1 2) 1 2] []) [1, 2] [] props) ∧
    ∀ b props', ¬ Equilibrium (problem { base (1 / 10 ^ 16) 3 with b := b } [share (1 / 2) (mixture (gap (1 / 10 ^ 16) 1 2) 1 2), share (1 - 1 / 2) (mixture (gap (1 / 10 ^ 16) 1 2) 1 2)] [])
      (PhaseOrder.amounts [share (1 / 2) (mixture (gap (1 / 10 ^ 16) 1 2) 1 2), share (1 - 1 / 2) (mixture (gap (1 / 10 ^ 16) 1 2) 1 2)]) [] props' := by
  obtain ⟨props, h⟩ := mixture_equilibrium (1 / 10 ^ 16) 1 2 (by norm_num) (by norm_num)
  have hs := mixture_sizes [mixture (gap (1 / 10 ^ 16) 1 2) 1 2] (by simp)
  have e3 : (1 + 2 : ℝ) = 3 := by norm_num
  rw [e3] at h
  have h := (equilibrium_iff _ _ _ _).2 ⟨_, h⟩
  refine ⟨⟨props, h⟩, ?_⟩
  have hfree := (mixture_free (gap (1 / 10 ^ 16) 1 2) 1 2 (by norm_num) (by norm_num)).1
  have hhalf := (mixture_free (gap (1 / 10 ^ 16) 1 2) (1 / 2 * 1) (1 / 2 * 2) (by norm_num) (by norm_num)).1
  exact C121_barrier_wrong (base (1 / 10 ^ 16) 3) (by norm_num [base]) (mixture (gap (1 / 10 ^ 16) 1 2) 1 2) [] [] hs.1 hs.2 (by simp [mixture, solution, phase, PhaseModel.size])
    (C105_ideal_stable _ _ _ _ (Or.inl rfl) _ _).function props h
    (by intro x hx; simp only [mixture, List.mem_cons, List.not_mem_nil, or_false] at hx; rcases hx with rfl | rfl <;> norm_num) (1 / 2) (by norm_num) (by norm_num)
    ⟨[1], some (1 / 10 ^ 16), none, 1⟩ ⟨[1], some (1 / 10 ^ 16), none, 2⟩ (by simp [mixture]) (by simp [mixture]) rfl (by norm_num)
    (hfree _ (by simp [mixture])) (hfree _ (by simp [mixture])) (hhalf _ (by simp [mixture])) (hhalf _ (by simp [mixture]))

end Verif.Copies
