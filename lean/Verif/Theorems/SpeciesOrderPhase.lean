import Verif.Theorems.SpeciesOrderClaims
import Verif.Theorems.PhaseOrder
import Verif.Theorems.Scaling

/-!
# C112: the order of the species in the properties of a phase and in an equilibrium problem
-/

namespace Verif.SpeciesOrder

open Activity Aqueous ChemicalProps PhaseOrder
open IdealEquilibrium hiding amounts
open ArraySerialization (Props write)

variable {order : List Nat}

theorem write_set {α : Type} (l : List α) (i : Nat) (a : α) (v : List α) (hi : i < l.length) : write (l.set i a) (i + 1) v = write l i (a :: v) := by
  unfold write
  have hl : l = l.take i ++ l[i] :: l.drop (i + 1) := by simp
  have e1 : (l.set i a).take (i + 1) = l.take i ++ [a] := by
    rw [List.take_set, List.set_eq_take_append_cons_drop]
    simp [hi, List.take_take]
  have e2 : (l.set i a).drop (i + 1 + v.length) = l.drop (i + (a :: v).length) := by
    rw [List.drop_set, if_pos (by omega)]
    congr 1
    simp
    omega
  rw [e1, e2]
  simp

/-- A standard property of a species, zero where it cannot be evaluated. -/
def stdOf (T P : ℝ) (g : Std ℝ → ℝ) (f : ℝ → ℝ → Option (Std ℝ)) : ℝ := ((f T P).map g).getD 0

theorem stdLoop_some (T P : ℝ) : ∀ (fs : List (ℝ → ℝ → Option (Std ℝ))) (i : Nat) (d : PhaseData ℝ), (stdLoop T P fs i d).2 = true → ∀ f ∈ fs, (f T P).isSome = true := by
  intro fs
  induction fs with
  | nil => intro i d _ f hf; cases hf
  | cons g fs ih =>
    intro i d h f hf
    simp only [stdLoop] at h
    cases hg : g T P with
    | none => rw [hg] at h; cases h
    | some s =>
      rw [hg] at h
      rcases List.mem_cons.mp hf with rfl | hf
      · rw [hg]; rfl
      · exact ih _ _ h f hf

/-- The data with other standard properties. -/
def withStd (d : PhaseData ℝ) (G H V Cp Cv : List ℝ) : PhaseData ℝ := { d with G0 := G, H0 := H, V0 := V, Cp0 := Cp, Cv0 := Cv }

theorem stdLoop_write (T P : ℝ) : ∀ (fs : List (ℝ → ℝ → Option (Std ℝ))) (i : Nat) (d : PhaseData ℝ) (size : Nat), i + fs.length = size → d.G0.length = size →
    d.H0.length = size → d.V0.length = size → d.Cp0.length = size → d.Cv0.length = size → (∀ f ∈ fs, (f T P).isSome = true) →
    stdLoop T P fs i d = (withStd d (write d.G0 i (fs.map (stdOf T P (·.G0)))) (write d.H0 i (fs.map (stdOf T P (·.H0))))
      (write d.V0 i (fs.map (stdOf T P (·.V0)))) (write d.Cp0 i (fs.map (stdOf T P (·.Cp0)))) (write d.Cv0 i (fs.map (stdOf T P (·.Cv0)))), true) := by
  intro fs
  induction fs with
  | nil =>
    intro i d size hi h1 h2 h3 h4 h5 _
    simp [stdLoop, write, withStd]
  | cons f fs ih =>
    intro i d size hi h1 h2 h3 h4 h5 hs
    rw [List.length_cons] at hi
    have hf := hs f List.mem_cons_self
    cases hfs : f T P with
    | none => rw [hfs] at hf; cases hf
    | some s =>
      simp only [stdLoop, hfs]
      rw [ih (i + 1) (d.setStd i s) size (by omega) (by simpa [PhaseData.setStd] using h1) (by simpa [PhaseData.setStd] using h2) (by simpa [PhaseData.setStd] using h3)
        (by simpa [PhaseData.setStd] using h4) (by simpa [PhaseData.setStd] using h5) fun g hg => hs g (List.mem_cons_of_mem _ hg)]
      have e : ∀ g : Std ℝ → ℝ, stdOf T P g f = g s := fun g => by unfold stdOf; rw [hfs]; rfl
      simp only [PhaseData.setStd, List.map_cons, e, withStd]
      rw [write_set _ _ _ _ (by omega), write_set _ _ _ _ (by omega), write_set _ _ _ _ (by omega), write_set _ _ _ _ (by omega), write_set _ _ _ _ (by omega)]

theorem write_all {α : Type} (l v : List α) (h : l.length = v.length) : write l 0 v = v := by
  unfold write
  rw [List.take_zero, List.nil_append, Nat.zero_add, ← h, List.drop_length, List.append_nil]

theorem stdLoop_reorder (T P : ℝ) (fs : List (ℝ → ℝ → Option (Std ℝ))) (d : PhaseData ℝ) (hd : Sized fs.length d) (ho : IsOrder order fs.length)
    (h : (stdLoop T P fs 0 d).2 = true) :
    stdLoop T P (reorder order fs) 0 (reorderData order d) = (reorderData order (stdLoop T P fs 0 d).1, true) := by
  have hs := stdLoop_some T P fs 0 d h
  have hl := reorder_length fs ho
  have hlen : ∀ l : List ℝ, l.length = fs.length → (reorder order l).length = fs.length := fun l hl' => by rw [reorder_length l (by rw [hl']; exact ho), hl']
  rw [stdLoop_write T P fs 0 d fs.length (by omega) hd.G0 hd.H0 hd.V0 hd.Cp0 hd.Cv0 hs,
    stdLoop_write T P (reorder order fs) 0 (reorderData order d) fs.length (by omega) (hlen _ hd.G0) (hlen _ hd.H0) (hlen _ hd.V0) (hlen _ hd.Cp0) (hlen _ hd.Cv0)
      fun f hf => hs f ((reorder_perm fs ho).mem_iff.mp hf)]
  simp only [reorderData, withStd]
  rw [write_all _ _ (by rw [List.length_map, hl]; exact hlen _ hd.G0), write_all _ _ (by rw [List.length_map, hl]; exact hlen _ hd.H0),
    write_all _ _ (by rw [List.length_map, hl]; exact hlen _ hd.V0), write_all _ _ (by rw [List.length_map, hl]; exact hlen _ hd.Cp0),
    write_all _ _ (by rw [List.length_map, hl]; exact hlen _ hd.Cv0),
    write_all _ _ (by rw [List.length_map]; exact hd.G0), write_all _ _ (by rw [List.length_map]; exact hd.H0), write_all _ _ (by rw [List.length_map]; exact hd.V0),
    write_all _ _ (by rw [List.length_map]; exact hd.Cp0), write_all _ _ (by rw [List.length_map]; exact hd.Cv0)]
  simp only [reorder_map]

theorem minCoeff_perm {l l' : List ℝ} (h : l.Perm l') (hm : ¬ minCoeff l = 0) : ¬ minCoeff l' = 0 := by
  by_cases hl : l = []
  · subst hl
    rw [List.nil_perm.mp h]
    exact hm
  · have hl' : l' ≠ [] := fun e => hl (by rw [e] at h; exact List.perm_nil.mp h)
    rw [minCoeff_zero l hl] at hm
    rw [minCoeff_zero l' hl']
    intro ⟨h1, h2⟩
    exact hm ⟨h.mem_iff.mpr h1, fun z hz => h2 z (h.mem_iff.mp hz)⟩

/-- The activity functions made from a model that does not depend on the order. -/
theorem C112_activity (model : Model) (species : List (Species ℝ)) (h : OrderFree model species) (order : List Nat) (ho : IsOrder order species.length) (f : Fn)
    (hf : model species = .ok f) : ∃ f', model (reorder order species) = .ok f' ∧ SameActivity order species.length (asActivity f) (asActivity f') := by
  obtain ⟨f', h1, h2⟩ := h order ho f hf
  refine ⟨f', h1, ?_⟩
  intro T P x p hx hg ha r hr
  unfold asActivity at hr ⊢
  cases hm : f T P x ⟨p, none, {}⟩ with
  | throw => rw [hm] at hr; cases hr
  | ub => rw [hm] at hr; cases hr
  | ok m =>
    rw [hm] at hr
    cases hr
    obtain ⟨m', h3, h4⟩ := h2 T P x p hx hg ha m hm
    rw [h3, ← h4]

/-- **C112.** The properties of a phase are those of the same phase with its species in another order: each species has the same amount, mole fraction, standard properties,
activity coefficient, activity and chemical potential, and the phase has the same amount, mass, molar properties and totals. -/
theorem C112_phase (R : ℝ) (ph ph' : PhaseModel ℝ) (hs : SamePhase order ph ph') (hk : KeepsSize ph.activity ∧ KeepsSize ph.ideal) (useIdeal : Bool) (T P : ℝ) (n : List ℝ)
    (hn : n.length = ph.size) (d r : PhaseData ℝ) (hd : Sized ph.size d) (h : phaseUpdate R ph useIdeal T P n d = (r, true)) :
    phaseUpdate R ph' useIdeal T P (reorder order n) (reorderData order d) = (reorderData order r, true) ∧
      (reorderData order r).amount = r.amount ∧ (ph.molarMasses.length = ph.size → (reorderData order r).mass ph' = r.mass ph) ∧ (reorderData order r).molarG = r.molarG ∧
      (reorderData order r).molarH = r.molarH ∧ (reorderData order r).molarV = r.molarV ∧ (reorderData order r).molarS = r.molarS ∧
      (reorderData order r).molarU = r.molarU ∧ (reorderData order r).molarA = r.molarA ∧ (reorderData order r).molarCp = r.molarCp ∧
      (reorderData order r).molarCv = r.molarCv := by
  have ho := hs.isOrder
  have hr : Sized ph.size r := by
    have := phaseUpdate_sized R ph hk useIdeal T P n hn d hd
    rw [h] at this
    exact this
  have hsize : ph'.size = ph.size := by
    unfold PhaseModel.size
    rw [hs.species, reorder_length _ ho]
  have hon : IsOrder order n.length := by rw [hn]; exact ho
  constructor
  · unfold phaseUpdate at h ⊢
    dsimp only at h ⊢
    have hd1 : Sized ph.size { d with T := T, P := P, n := n } := ⟨hn, hd.x, hd.G0, hd.H0, hd.V0, hd.Cp0, hd.Cv0, hd.ln_g, hd.ln_a, hd.u⟩
    by_cases h1 : (stdLoop T P ph.species 0 { d with T := T, P := P, n := n }).2 = false
    · rw [if_pos h1] at h; cases h
    · rw [if_neg h1] at h
      have hstd := stdLoop_reorder T P ph.species { d with T := T, P := P, n := n } hd1 ho (by simpa using h1)
      rw [hs.species]
      change stdLoop T P (reorder order ph.species) 0 { reorderData order d with T := T, P := P, n := reorder order n } = _ at hstd
      rw [hstd]
      rw [if_neg (by simp)]
      have hf := stdLoop_frame T P ph.species 0 { d with T := T, P := P, n := n }
      dsimp only at hf
      generalize stdLoop T P ph.species 0 { d with T := T, P := P, n := n } = s at h hf ⊢
      obtain ⟨-, -, -, -, f5, f6, -, f8, -⟩ := hf
      have hsum : (reorder order n).sum = n.sum := (reorder_perm n hon).sum_eq
      rw [hsum, hsize]
      have hx : (if n.sum = 0 then List.replicate ph.size (if ph.size = 1 then (1 : ℝ) else 0) else (reorder order n).map (fun y => y / n.sum)) =
          reorder order (if n.sum = 0 then List.replicate ph.size (if ph.size = 1 then (1 : ℝ) else 0) else n.map (fun y => y / n.sum)) := by
        split_ifs
        · refine (List.eq_replicate_iff.mpr ⟨?_, ?_⟩).symm
          · rw [reorder_length _ (by rw [List.length_replicate]; exact ho), List.length_replicate]
          · intro b hb
            exact List.eq_of_mem_replicate ((reorder_perm _ (by rw [List.length_replicate]; exact ho)).mem_iff.mp hb)
        · refine (List.eq_replicate_iff.mpr ⟨?_, ?_⟩).symm
          · rw [reorder_length _ (by rw [List.length_replicate]; exact ho), List.length_replicate]
          · intro b hb
            exact List.eq_of_mem_replicate ((reorder_perm _ (by rw [List.length_replicate]; exact ho)).mem_iff.mp hb)
        · rw [reorder_map]
      rw [hx]
      have hxl : (if n.sum = 0 then List.replicate ph.size (if ph.size = 1 then (1 : ℝ) else 0) else n.map (fun y => y / n.sum)).length = ph.size := by
        split_ifs <;> simp [hn]
      generalize (if n.sum = 0 then List.replicate ph.size (if ph.size = 1 then (1 : ℝ) else 0) else n.map (fun y => y / n.sum)) = x at h hxl ⊢
      by_cases h2 : minCoeff x = 0
      · rw [if_pos h2] at h; cases h
      · rw [if_neg h2] at h
        rw [if_neg (minCoeff_perm (reorder_perm x (by rw [hxl]; exact ho)).symm h2)]
        have hfn : SameActivity order ph.size (if useIdeal = true then ph.ideal else ph.activity) (if useIdeal = true then ph'.ideal else ph'.activity) := by
          cases useIdeal
          · exact hs.activity
          · exact hs.ideal
        have hkeeps : KeepsSize (if useIdeal = true then ph.ideal else ph.activity) := by
          cases useIdeal
          · exact hk.1
          · exact hk.2
        generalize (if useIdeal = true then ph.ideal else ph.activity) = fn at h hfn hkeeps
        generalize (if useIdeal = true then ph'.ideal else ph'.activity) = fn' at hfn ⊢
        have hgl : s.1.ln_g.length = ph.size := by rw [f5]; exact hd.ln_g
        have hal : s.1.ln_a.length = ph.size := by rw [f6]; exact hd.ln_a
        have hGl : s.1.G0.length = ph.size := f8.trans hd.G0
        have hz : ∀ (G la : List ℝ), G.length = ph.size → la.length = ph.size →
            List.zipWith (fun g a => g + R * T * a) (reorder order G) (reorder order la) = reorder order (List.zipWith (fun g a => g + R * T * a) G la) :=
          fun G la hG hla => (reorder_zipWith _ G la (by rw [hG]; exact ho) (by rw [hla, hG])).symm
        by_cases h3 : n.sum = 0
        · rw [if_pos h3] at h ⊢
          simp only [Bool.true_eq_false, if_false] at h ⊢
          cases h
          simp only [reorderData, PhaseData.setAprops, PhaseData.aprops, AProps.zero, reorder_map]
          rw [← hz _ _ hGl (by rw [List.length_map]; exact hal), reorder_map]
        · rw [if_neg h3] at h ⊢
          cases hfx : fn T P x (PhaseData.aprops { s.1 with nsum := n.sum, x := x }) with
          | mk a ok =>
            rw [hfx] at h
            cases ok with
            | false => simp at h
            | true =>
              have e := hfn T P x _ hxl hgl hal a hfx
              have hkeep : a.ln_a.length = ph.size := by
                have := hkeeps T P x (PhaseData.aprops { s.1 with nsum := n.sum, x := x })
                rw [hfx] at this
                exact this.2.trans hal
              change fn' T P (reorder order x) (PhaseData.aprops { reorderData order s.1 with nsum := n.sum, x := reorder order x }) = _ at e
              rw [e]
              simp only [Bool.true_eq_false, if_false] at h ⊢
              cases h
              simp only [reorderData, PhaseData.setAprops, reorderProps]
              rw [← hz _ _ hGl hkeep]
  · have hdot : ∀ l l' : List ℝ, l.length = ph.size → l'.length = ph.size →
        (List.zipWith (· * ·) (reorder order l) (reorder order l')).sum = (List.zipWith (· * ·) l l').sum := by
      intro l l' hl hl'
      rw [← reorder_zipWith _ l l' (by rw [hl]; exact ho) (by rw [hl', hl])]
      exact (reorder_perm _ (by rw [List.length_zipWith, hl, hl', min_self]; exact ho)).sum_eq
    have hG : (reorderData order r).molarG = r.molarG := by
      unfold PhaseData.molarG
      simp only [reorderData, hdot _ _ hr.x hr.G0]
    have hH : (reorderData order r).molarH = r.molarH := by
      unfold PhaseData.molarH
      simp only [reorderData, hdot _ _ hr.x hr.H0]
    have hV : (reorderData order r).molarV = r.molarV := by
      unfold PhaseData.molarV
      simp only [reorderData, hdot _ _ hr.x hr.V0]
    have hS : (reorderData order r).molarS = r.molarS := by
      unfold PhaseData.molarS
      rw [hG, hH]
      rfl
    have hU : (reorderData order r).molarU = r.molarU := by
      unfold PhaseData.molarU
      rw [hH, hV]
      rfl
    refine ⟨rfl, ?_, hG, hH, hV, hS, hU, ?_, ?_, ?_⟩
    · intro hmass
      unfold PhaseData.mass
      rw [← List.sum_eq_foldl, ← List.sum_eq_foldl, hs.masses]
      exact hdot _ _ hr.n hmass
    · unfold PhaseData.molarA
      rw [hU, hS]
      rfl
    · unfold PhaseData.molarCp
      simp only [reorderData, hdot _ _ hr.x hr.Cp0]
    · unfold PhaseData.molarCv
      simp only [reorderData, hdot _ _ hr.x hr.Cv0]

/-! ## Equilibrium -/

theorem forall2_lift {α β γ : Type} (f : α → β) {R : β → γ → Prop} : ∀ (L : List α) (l : List γ), List.Forall₂ R (L.map f) l →
    List.Forall₂ (fun t c => R (f t) c) L l := by
  intro L l h
  exact List.forall₂_map_left_iff.mp h

/-- **C112 (equilibrium).** If the species of each phase are given in another order, with their columns, bounds and amounts, an equilibrium state stays one, with the
same properties of each phase and each species. -/
theorem C112_equilibrium (common : Problem) (parts parts' : List Part) (hsame : List.Forall₂ (fun a a' => ∃ order, SamePart order a a') parts parts') (titrants : List (Unknown × ℝ))
    (hm : ModelsOk (parts.map Part.model)) (hm' : ModelsOk (parts'.map Part.model)) (hsize : ∀ a ∈ parts, a.species.length = a.model.size) (props : Props ℝ)
    (he : Equilibrium (problem common parts titrants) (amounts parts) (titrants.map (·.1.amount)) props) :
    ∃ props', Equilibrium (problem common parts' titrants) (amounts parts') (titrants.map (·.1.amount)) props' ∧
      List.Forall₂ (fun s s' => ∃ order, SamePhase order s.1 s'.1 ∧ s'.2 = reorderData order s.2) (stored (parts.map Part.model) props) (stored (parts'.map Part.model) props') := by
  obtain ⟨hF, ⟨old, hs, hu⟩, y, hy⟩ := he
  have ea : ∀ l : List Part, amounts l = l.flatMap fun a => a.species.map Unknown.amount := by
    intro l
    unfold amounts
    rw [List.map_flatMap]
  have hf : ∀ a ∈ parts, (a.species.map Unknown.amount).length = a.model.size := fun a ha => by rw [List.length_map]; exact hsize a ha
  change update common.R (parts.map Part.model) false old common.T common.P (amounts parts) = _ at hu
  rw [ea] at hu
  obtain ⟨-, -, hsp, -⟩ := update_parts _ _ _ _ _ _ parts hm hf old props hs hu
  obtain ⟨L, h1, h2, h3⟩ := update_triples _ _ _ _ _ _ parts hm hf old props hs hu
  have hp : ∀ t ∈ L, t.1 ∈ parts := fun t ht => by rw [← h1]; exact List.mem_map_of_mem ht
  have hsizedL : ∀ t ∈ L, Sized t.1.model.size t.2.2 := by
    intro t ht
    have := phaseUpdate_sized common.R t.1.model (hm _ (List.mem_map_of_mem (hp t ht))) false common.T common.P _ (hf t.1 (hp t ht)) t.2.1 (h2 t ht).1
    rw [(h2 t ht).2] at this
    exact this
  -- the phases with their species in the other order
  obtain ⟨M, h4, h5⟩ : ∃ M : List (Part × PhaseData ℝ × PhaseData ℝ), List.Forall₂ (fun t t' => t ∈ L ∧ ∃ order, SamePart order t.1 t'.1 ∧ t'.2.1 = reorderData order t.2.1 ∧
      t'.2.2 = reorderData order t.2.2) L M ∧ M.map (·.1) = parts' := by
    have h6 := forall2_lift (·.1) L parts' (by rw [h1]; exact hsame)
    clear h1 h3
    have : ∀ (L0 : List (Part × PhaseData ℝ × PhaseData ℝ)) (l : List Part), (∀ t ∈ L0, t ∈ L) → List.Forall₂ (fun t c => ∃ order, SamePart order t.1 c) L0 l →
        ∃ M : List (Part × PhaseData ℝ × PhaseData ℝ), List.Forall₂ (fun t t' => t ∈ L ∧ ∃ order, SamePart order t.1 t'.1 ∧ t'.2.1 = reorderData order t.2.1 ∧
      t'.2.2 = reorderData order t.2.2) L0 M ∧ M.map (·.1) = l := by
      intro L0 l hL h
      induction h with
      | nil => exact ⟨[], .nil, rfl⟩
      | @cons t c L1 l1 h _ ih =>
        obtain ⟨M, g1, g2⟩ := ih fun t ht => hL t (List.mem_cons_of_mem _ ht)
        obtain ⟨order, ho⟩ := h
        exact ⟨(c, reorderData order t.2.1, reorderData order t.2.2) :: M, .cons ⟨hL t List.mem_cons_self, order, ho, rfl, rfl⟩ g1, by rw [List.map_cons, g2]⟩
    exact this L parts' (fun _ h => h) h6
  -- each of them
  have hM : ∀ t' ∈ M, ∃ t ∈ L, ∃ order, SamePart order t.1 t'.1 ∧ t'.2.1 = reorderData order t.2.1 ∧ t'.2.2 = reorderData order t.2.2 := by
    intro t' ht'
    obtain ⟨i, hi, rfl⟩ := List.getElem_of_mem ht'
    have := (List.forall₂_iff_get.mp h4).2 i (by rw [h4.length_eq]; exact hi) hi
    exact ⟨_, this.1, this.2⟩
  have hreo : ∀ (order : List Nat) (k : Nat) (l : List ℝ), IsOrder order k → l.length = k → (reorder order l).length = k := fun order k l ho hl => by
    rw [reorder_length l (by rw [hl]; exact ho), hl]
  have hdata : ∀ (order : List Nat) (k : Nat) (d : PhaseData ℝ), IsOrder order k → Sized k d → Sized k (reorderData order d) := fun order k d ho hd =>
    ⟨hreo _ _ _ ho hd.n, hreo _ _ _ ho hd.x, hreo _ _ _ ho hd.G0, hreo _ _ _ ho hd.H0, hreo _ _ _ ho hd.V0, hreo _ _ _ ho hd.Cp0, hreo _ _ _ ho hd.Cv0,
      hreo _ _ _ ho hd.ln_g, hreo _ _ _ ho hd.ln_a, hreo _ _ _ ho hd.u⟩
  have hsz : ∀ (order : List Nat) (a a' : Part), a ∈ parts → SamePart order a a' → a'.model.size = a.model.size ∧ a'.species.length = a.model.size := by
    intro order a a' ha h
    constructor
    · unfold PhaseModel.size
      rw [h.phase.species, reorder_length _ h.phase.isOrder]
    · rw [h.species, reorder_length _ (by rw [hsize a ha]; exact h.phase.isOrder), hsize a ha]
  have hfM : ∀ t' ∈ M, (t'.1.species.map Unknown.amount).length = t'.1.model.size := by
    intro t' ht'
    obtain ⟨t, ht, order, hsp, -, -⟩ := hM t' ht'
    obtain ⟨g1, g2⟩ := hsz order _ _ (hp t ht) hsp
    rw [List.length_map, g1, g2]
  have e1 : parts'.map Part.model = M.map (·.1.model) := by rw [← h5, List.map_map]; rfl
  have e2 : (parts'.flatMap fun a => a.species.map Unknown.amount) = M.flatMap fun t => t.1.species.map Unknown.amount := by rw [← h5, List.flatMap_map]
  have e3 : parts.map Part.model = L.map (·.1.model) := by rw [← h1, List.map_map]; rfl
  have hmM : ModelsOk (M.map (·.1.model)) := by rw [← e1]; exact hm'
  obtain ⟨old', p', g1, g2, g3, g4⟩ := update_of_parts common.R false common.T common.P (fun t : Part × PhaseData ℝ × PhaseData ℝ => t.1.model)
    (fun t => t.1.species.map Unknown.amount) (·.2.1) (·.2.2) M hmM hfM (by
      intro t' ht'
      obtain ⟨t, ht, order, hsp, k1, k2⟩ := hM t' ht'
      obtain ⟨z1, z2⟩ := hsz order _ _ (hp t ht) hsp
      refine ⟨?_, ?_⟩
      · rw [k1, z1]
        exact hdata _ _ _ hsp.phase.isOrder (h2 t ht).1
      · rw [k1, k2, hsp.species, ← reorder_map]
        exact (C112_phase common.R t.1.model t'.1.model hsp.phase (hm _ (List.mem_map_of_mem (hp t ht))) false common.T common.P _ (hf _ (hp t ht)) _ _ (h2 t ht).1 (h2 t ht).2).1)
  obtain ⟨-, -, hsp', -⟩ := update_parts _ _ _ _ (fun t : Part × PhaseData ℝ × PhaseData ℝ => t.1.model) (fun t => t.1.species.map Unknown.amount) M hmM hfM old' p' g1 g3
  have u1 : props.u = L.flatMap (·.2.2.u) := by
    apply potentials_blocks (φ := Part.model) L props (by rw [h1]; exact hsp)
    rw [h1]
    exact fun j t hj => (h3 j t hj).2
  have em : (M.map (·.1)).map Part.model = M.map (·.1.model) := by rw [List.map_map]; rfl
  have u2 : p'.u = M.flatMap (·.2.2.u) := by
    apply potentials_blocks (φ := Part.model) M p' (by rw [em]; exact hsp')
    rw [em]
    exact g4
  have hsized : ∀ t ∈ L, t.2.2.u.length = t.1.species.length := fun t ht => by rw [hsize _ (hp t ht)]; exact (hsizedL t ht).u
  have hsized' : ∀ t ∈ M, t.2.2.u.length = t.1.species.length := by
    intro t' ht'
    obtain ⟨t, ht, order, hsp, k1, k2⟩ := hM t' ht'
    rw [(hsz order _ _ (hp t ht) hsp).2, k2]
    exact hreo _ _ _ hsp.phase.isOrder (hsizedL t ht).u
  have c1 : (amounts parts).length = count (parts.map Part.model) := by rw [ea]; exact flatMap_count _ _ _ hf
  have c2 : (amounts parts').length = count (parts'.map Part.model) := by
    rw [ea, e1, e2]
    exact flatMap_count _ _ _ hfM
  have hgood := (good_iff common parts titrants c1 _ (entries common L titrants) (by rw [entries_fst _ _ _ hsized, h1])
    (by rw [entries_snd _ _ _ hsized, h1, ← u1]) y).1 ⟨hF, hy⟩
  have hgood' := good_perm (X' := entries common M titrants) (by
    unfold entries
    refine List.Perm.append_right _ ?_
    clear e1 e2 e3 hmM g2 g3 g4 hsp' u1 em u2 hfM hM c1 c2 hgood hsized' h5 h3 h1
    have : ∀ (L0 M0 : List (Part × PhaseData ℝ × PhaseData ℝ)), List.Forall₂ (fun t t' => t ∈ L ∧ ∃ order, SamePart order t.1 t'.1 ∧ t'.2.1 = reorderData order t.2.1 ∧
        t'.2.2 = reorderData order t.2.2) L0 M0 →
        (L0.flatMap fun t => List.zipWith (fun x u => (x, u / (common.R * common.T) - common.eps * common.factor / x.amount)) t.1.species t.2.2.u).Perm
          (M0.flatMap fun t => List.zipWith (fun x u => (x, u / (common.R * common.T) - common.eps * common.factor / x.amount)) t.1.species t.2.2.u) := by
      intro L0 M0 h
      induction h with
      | nil => exact .refl _
      | @cons t t' L1 M1 h _ ih =>
        obtain ⟨ht, order, hsp, -, k2⟩ := h
        rw [List.flatMap_cons, List.flatMap_cons]
        refine List.Perm.append ?_ ih
        rw [hsp.species, k2]
        have hl := hsize _ (hp t ht)
        show List.Perm _ (List.zipWith _ (reorder order t.1.species) (reorder order t.2.2.u))
        rw [← reorder_zipWith _ t.1.species t.2.2.u (by rw [hl]; exact hsp.phase.isOrder) (hsized t ht)]
        exact (reorder_perm _ (by rw [List.length_zipWith, hsized t ht, min_self, hl]; exact hsp.phase.isOrder)).symm
    exact this L M h4) hgood
  obtain ⟨hF', hy'⟩ := (good_iff common parts' titrants c2 _ (entries common M titrants) (by rw [entries_fst _ _ _ hsized', h5])
    (by rw [entries_snd _ _ _ hsized', h5, ← u2]) y).2 hgood'
  refine ⟨p', ⟨hF', ⟨old', ?_, ?_⟩, y, hy'⟩, ?_⟩
  · change Shape (parts'.map Part.model) old'
    rw [e1]; exact g1
  · change update common.R (parts'.map Part.model) false old' common.T common.P (amounts parts') = _
    rw [ea, e1, e2]; exact g3
  · rw [e1, stored_eq _ _ M p' g4, e3, stored_eq _ (·.2.2) L props (by rw [← e3]; exact fun j t hj => (h3 j t hj).2)]
    rw [List.forall₂_map_left_iff, List.forall₂_map_right_iff]
    refine h4.imp ?_
    rintro t t' ⟨-, order, hsp, -, k2⟩
    exact ⟨order, hsp.phase, k2⟩

/-! ### Examples -/

section Examples

theorem ideal_orderFree (species : List (Species ℝ)) : OrderFree Activity.idealSolution species :=
  C112_order _ _ .idealSolution species fun _ h => by cases h

/-- The ideal solution of two isomers with different Gibbs energies, and with the isomers in the other order. -/
theorem swapped : SamePhase [1, 0] (phase [constant (gasConstant * 300 * (Real.log 2 + 1 / 2 / 10 ^ 16)), constant 0] [solute c!"X", solute c!"Y"]
      Activity.idealSolution Activity.idealSolution)
    (phase [constant 0, constant (gasConstant * 300 * (Real.log 2 + 1 / 2 / 10 ^ 16))] [solute c!"Y", solute c!"X"] Activity.idealSolution Activity.idealSolution) := by
  have ho : IsOrder [1, 0] 2 := by unfold IsOrder; decide
  have ha : SameActivity [1, 0] 2 (activityFn Activity.idealSolution [solute c!"X", solute c!"Y"]) (activityFn Activity.idealSolution [solute c!"Y", solute c!"X"]) := by
    obtain ⟨f', h1, h2⟩ := C112_activity _ _ (ideal_orderFree [solute c!"X", solute c!"Y"]) [1, 0] ho _ rfl
    cases h1
    exact h2
  exact ⟨ho, rfl, ha, ha, rfl⟩

/-- The solution as part of a problem, and with the isomers in the other order. -/
noncomputable def isomerPart : Part :=
  ⟨phase [constant (gasConstant * 300 * (Real.log 2 + 1 / 2 / 10 ^ 16)), constant 0] [solute c!"X", solute c!"Y"] Activity.idealSolution Activity.idealSolution,
    [⟨[1], some (1 / 10 ^ 16), none, 1⟩, ⟨[1], some (1 / 10 ^ 16), none, 2⟩]⟩

noncomputable def isomerPart' : Part :=
  ⟨phase [constant 0, constant (gasConstant * 300 * (Real.log 2 + 1 / 2 / 10 ^ 16))] [solute c!"Y", solute c!"X"] Activity.idealSolution Activity.idealSolution,
    [⟨[1], some (1 / 10 ^ 16), none, 2⟩, ⟨[1], some (1 / 10 ^ 16), none, 1⟩]⟩

/-- One mole of the first isomer and two of the second are an equilibrium in both orders. -/
example : ∃ props props', Equilibrium Scaling.unequal [1, 2] [] props ∧ Equilibrium (problem Scaling.unequal [isomerPart'] []) [2, 1] [] props' ∧
    ∃ order, (view [isomerPart'.model] props' 0).u = reorder order (view [isomerPart.model] props 0).u := by
  obtain ⟨props, h⟩ := Scaling.unequal_equilibrium
  have hk : ModelsOk [isomerPart'.model] := by
    intro ph hph
    simp only [List.mem_singleton] at hph
    subst hph
    exact ⟨(activityFn_ideal _ (Or.inl rfl) _).2.1, (activityFn_ideal _ (Or.inl rfl) _).2.1⟩
  obtain ⟨props', h1, h2⟩ := C112_equilibrium Scaling.unequal [isomerPart] [isomerPart'] (.cons ⟨[1, 0], swapped, rfl⟩ .nil) [] Scaling.unequal_proper.sizes hk
    (by intro a ha; simp only [List.mem_singleton] at ha; subst ha; rfl) props h
  refine ⟨props, props', h, h1, ?_⟩
  cases h2 with
  | cons h2 _ =>
    obtain ⟨order, -, h4⟩ := h2
    exact ⟨order, congrArg PhaseData.u h4⟩

end Examples

end Verif.SpeciesOrder
