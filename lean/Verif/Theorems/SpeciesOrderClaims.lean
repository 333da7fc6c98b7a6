import Verif.Theorems.SpeciesOrderPitzer
import Verif.Theorems.ActivityGases
import Verif.Theorems.ActivityCubicEOS

/-!
# C112: the order in which the species of a phase are given does not matter (statements)
-/

namespace Verif.SpeciesOrder

open Activity Aqueous ChemicalProps

variable {order : List Nat}

/-! ## Models for gases -/

/-- The index of a species that may be missing. -/
theorem find_cases (species : List (Species ℝ)) (f : Formula) (ho : IsOrder order species.length) (h : AtMostOne species f) :
    (findWithFormula species f < species.length ∧ findWithFormula (reorder order species) f < species.length ∧
      place order (findWithFormula (reorder order species) f) = findWithFormula species f) ∨
    (¬ findWithFormula species f < species.length ∧ ¬ findWithFormula (reorder order species) f < species.length) := by
  by_cases hl : findWithFormula species f < species.length
  · exact .inl ⟨hl, find_reorder species f ho h hl⟩
  · refine .inr ⟨hl, fun hl' => hl ?_⟩
    obtain ⟨s, hs, hf⟩ := (find_lt (reorder order species) f).mp (by rw [reorder_length species ho]; exact hl')
    exact (find_lt species f).mpr ⟨s, (reorder_perm species ho).mem_iff.mp hs, hf⟩

theorem setIf_reorder (species : List (Species ℝ)) (f : Formula) (ho : IsOrder order species.length) (h : AtMostOne species f) (l : List ℝ)
    (hl : l.length = species.length) (v : ℝ) :
    setIf (reorder order l) (findWithFormula (reorder order species) f) v = reorder order (setIf l (findWithFormula species f) v) := by
  have hol : IsOrder order l.length := by rw [hl]; exact ho
  unfold setIf
  rw [reorder_length l hol, hl]
  rcases find_cases species f ho h with ⟨h1, h2, h3⟩ | ⟨h1, h2⟩
  · rw [if_pos h1, if_pos h2, reorder_set l hol _ (by omega), h3]
  · rw [if_neg h1, if_neg h2]

theorem setIf_length (l : List ℝ) (i : Nat) (v : ℝ) : (setIf l i v).length = l.length := by
  unfold setIf
  split
  · exact List.length_set
  · rfl

theorem equivariant_spycherReed : Equivariant spycherReed [waterFormula, co2Formula, ch4Formula] := by
  intro order species ho hone f hf
  have hg : ∀ g, AtMostOne species (gasFormula g) := by
    intro g
    apply hone
    fin_cases g <;> simp [gasFormula]
  unfold spycherReed at hf ⊢
  have hc : Chem.contained ((reorder order species).map fun s => s.formula.str) [c!"H2O", c!"CO2", c!"CH4"] =
      Chem.contained (species.map fun s => s.formula.str) [c!"H2O", c!"CO2", c!"CH4"] := by
    unfold Chem.contained
    rw [Bool.eq_iff_iff]
    simp only [List.all_eq_true, List.mem_map, (reorder_perm species ho).mem_iff]
  rw [hc]
  split at hf
  · cases hf
  · rename_i h1
    rw [if_neg h1]
    cases hf
    refine ⟨_, rfl, ?_⟩
    intro T P x m m' hx hr r h
    have hox : IsOrder order x.length := by rw [hx]; exact ho
    simp only [sizes_ok hr.fits hx] at h
    simp only [sizes_ok (hr.fits' ho) (show (reorder order x).length = (reorder order species).length by rw [reorder_length x hox, reorder_length species ho, hx])]
    cases h
    have hy : (fun g => if findWithFormula (reorder order species) (gasFormula g) < (reorder order species).length then
        (reorder order x).getD (findWithFormula (reorder order species) (gasFormula g)) 0 else 0) =
        fun g => if findWithFormula species (gasFormula g) < species.length then x.getD (findWithFormula species (gasFormula g)) 0 else 0 := by
      funext g
      rw [reorder_length species ho]
      rcases find_cases species (gasFormula g) ho (hg g) with ⟨h1, h2, h3⟩ | ⟨h1, h2⟩
      · rw [if_pos h1, if_pos h2, reorder_getD x hox _ (by omega), h3]
      · rw [if_neg h1, if_neg h2]
    have hpg : m'.props.ln_g = reorder order m.props.ln_g := by rw [hr.props]; rfl
    have hl := hr.fits.1
    refine ⟨_, rfl, ⟨⟨?_, ?_⟩, ?_, hr.extra, hr.rumpf, hr.duan⟩⟩
    · simp [srEval, setIf_length, hl]
    · simp [srEval, setIf_length, hl, hx]
    · unfold srEval reorderProps
      simp only
      rw [hy, hpg, setIf_reorder species _ ho (hg 0) _ hl, setIf_reorder species _ ho (hg 1) _ (by simp [setIf_length, hl]),
        setIf_reorder species _ ho (hg 2) _ (by simp [setIf_length, hl])]
      rw [reorder_zipWith (fun g xi => g + Real.log xi + Real.log (1e-5 * P)) _ x (by simp only [setIf_length, hl]; exact ho) (by simp [setIf_length, hl, hx])]

theorem setIf_getD (species : List (Species ℝ)) (f : Formula) (ho : IsOrder order species.length) (h : AtMostOne species f) (l : List ℝ)
    (hl : l.length = species.length) (v : ℝ) :
    setIf (reorder order l) (findWithFormula (reorder order species) f) ((reorder order l).getD (findWithFormula (reorder order species) f) 0 + v) =
      reorder order (setIf l (findWithFormula species f) (l.getD (findWithFormula species f) 0 + v)) := by
  have hol : IsOrder order l.length := by rw [hl]; exact ho
  unfold setIf
  rw [reorder_length l hol, hl]
  rcases find_cases species f ho h with ⟨h1, h2, h3⟩ | ⟨h1, h2⟩
  · rw [if_pos h1, if_pos h2, reorder_set l hol _ (by omega), h3, reorder_getD l hol _ (by omega), h3]
  · rw [if_neg h1, if_neg h2]

theorem equivariant_spycherPruessEnnis (eps : ℝ) : Equivariant (spycherPruessEnnis eps) [waterFormula, co2Formula] := by
  intro order species ho hone f hf
  unfold spycherPruessEnnis at hf ⊢
  cases hf
  refine ⟨_, rfl, ?_⟩
  intro T P x m m' hx hr r h
  have hox : IsOrder order x.length := by rw [hx]; exact ho
  simp only [sizes_ok hr.fits hx] at h
  simp only [sizes_ok (hr.fits' ho) (show (reorder order x).length = (reorder order species).length by rw [reorder_length x hox, reorder_length species ho, hx])]
  cases h
  have hpg : m'.props.ln_g = reorder order m.props.ln_g := by rw [hr.props]; rfl
  have hl := hr.fits.1
  have hw := hone waterFormula (by simp)
  have hc := hone co2Formula (by simp)
  refine ⟨_, rfl, ⟨⟨?_, ?_⟩, ?_, hr.extra, hr.rumpf, hr.duan⟩⟩
  · simp [setIf_length, hl]
  · simp [setIf_length, hx]
  · rw [hpg, hr.props]
    unfold reorderProps
    simp only
    rw [setIf_reorder species _ ho hw _ hl, setIf_reorder species _ ho hc _ (by simp [setIf_length, hl]), ← reorder_map,
      setIf_getD species _ ho hw _ (by simp [hx]), setIf_getD species _ ho hc _ (by simp [setIf_length, hx])]

/-! ## All models -/

theorem listed_equivariant (model : Model) (formulas : List Formula) (h : Listed model formulas) : Equivariant model formulas := by
  induction h with
  | idealSolution => exact equivariant_idealSolution
  | idealGas => exact equivariant_idealGas
  | idealAqueous => exact equivariant_idealAqueous
  | debyeHuckel reactions rho0 eps0 p => exact equivariant_debyeHuckel reactions rho0 eps0 p
  | hkf reactions rho0 eps0 p => exact equivariant_hkf reactions rho0 eps0 p
  | pitzer reactions rho0 eps0 => exact equivariant_pitzer reactions rho0 eps0
  | setschenow neutral b => exact equivariant_setschenow neutral b
  | drummond gas p => exact equivariant_drummond gas p
  | rumpf gas => exact equivariant_rumpf gas
  | duanSun gas => exact equivariant_duanSun gas
  | spycherReed => exact equivariant_spycherReed
  | spycherPruessEnnis eps => exact equivariant_spycherPruessEnnis eps
  | chain models _ ih => exact equivariant_chain models ih

/-- **C112.** The activity model gives each species the same activity and activity coefficient, and the phase the same excess properties, whatever the order
in which the species of the phase are given, if none of the formulas the model looks up is that of two species. -/
theorem C112_order (model : Model) (formulas : List Formula) (h : Listed model formulas) (species : List (Species ℝ))
    (hone : ∀ f ∈ formulas, AtMostOne species f) : OrderFree model species :=
  (listed_equivariant model formulas h).orderFree species hone

/-- Brine with carbon dioxide, with a chain of two models: none of the formulas is that of two species. -/
example (rho0 eps0 : ℝ) : OrderFree (Activity.chain [Activity.debyeHuckel [] rho0 eps0 {}, Activity.rumpf co2]) saltyWater ∧ IsOrder [3, 2, 0, 1] saltyWater.length ∧
    (reorder [3, 2, 0, 1] saltyWater).map (·.name) = [c!"CO2(aq)", c!"Cl-", c!"H2O(aq)", c!"Na+"] ∧
    ∃ f, Activity.chain [Activity.debyeHuckel [] rho0 eps0 {}, Activity.rumpf co2] saltyWater = .ok f := by
  refine ⟨C112_order _ _ (.chain [(Activity.debyeHuckel [] rho0 eps0 {}, [waterFormula]), (Activity.rumpf co2, co2 :: rumpfFormulas)] ?_) saltyWater ?_, ?_, rfl, ?_⟩
  · intro q hq
    simp only [List.mem_cons, List.not_mem_nil, or_false] at hq
    rcases hq with rfl | rfl
    · exact .debyeHuckel [] rho0 eps0 {}
    · exact .rumpf co2
  · have h : ∀ f ∈ [waterFormula, co2, naPlus, kPlus, caPlus, mgPlus, clMinus], [waterFormula, naPlus, clMinus, co2].countP (fun g => f.equivalent g) ≤ 1 := by
      decide +kernel
    intro f hf
    have h' := h f (by simpa [rumpfFormulas] using hf)
    have e : saltyWater.countP (fun s => f.equivalent s.formula) = (saltyWater.map (·.formula)).countP (fun g => f.equivalent g) := by
      rw [List.countP_map]
      rfl
    unfold AtMostOne
    rw [e]
    exact h'
  · show [3, 2, 0, 1].Perm [0, 1, 2, 3]
    decide
  · obtain ⟨f, _, _, _, _, hf, _⟩ := rumpf_chain rho0 eps0 _ (.debyeHuckel {}) ⟨c!"Na+", naPlus, 1⟩ ⟨c!"Cl-", clMinus, -1⟩ (by norm_num) (by norm_num) (by decide +kernel)
      (by decide +kernel) 300 100000 1 1 1 1 one_ne_zero {}
    exact ⟨f, hf⟩

/-! ## The model of Redlich and Kister -/

/-- **C112.** In the model of Redlich and Kister exchanging the two species is the same as changing the sign of the second parameter. -/
theorem C112_redlichKister (a0 a1 a2 : ℝ) (s t : Species ℝ) : ∃ f f', redlichKister a0 a1 a2 [s, t] = .ok f ∧ redlichKister a0 (-a1) a2 [t, s] = .ok f' ∧
    ∀ (T P x1 x2 : ℝ) (p : AProps ℝ), p.ln_g.length = 2 → p.ln_a.length = 2 →
      ∃ m m', f T P [x1, x2] ⟨p, none, {}⟩ = .ok m ∧ f' T P [x2, x1] ⟨reorderProps [1, 0] p, none, {}⟩ = .ok m' ∧ m'.props = reorderProps [1, 0] m.props := by
  refine ⟨_, _, rfl, rfl, ?_⟩
  intro T P x1 x2 p hg ha
  obtain ⟨Vex, VexT, VexP, Gex, Hex, Cpex, Cvex, g, a⟩ := p
  obtain ⟨g1, g2, rfl⟩ : ∃ g1 g2, g = [g1, g2] := List.length_eq_two.mp hg
  obtain ⟨b1, b2, rfl⟩ : ∃ b1 b2, a = [b1, b2] := List.length_eq_two.mp ha
  refine ⟨_, _, rfl, rfl, ?_⟩
  simp only [reorderProps, reorder, List.filterMap_cons, List.filterMap_nil, List.getElem?_cons_zero, List.getElem?_cons_succ, List.set_cons_zero, List.set_cons_succ,
    List.getD_cons_zero, List.getD_cons_succ, List.zipWith_cons_cons, List.zipWith_nil_left]
  have e1 : x2 * x1 * (a0 + -a1 * (x2 - x1) + a2 * (x2 - x1) ^ 2) = x1 * x2 * (a0 + a1 * (x1 - x2) + a2 * (x1 - x2) ^ 2) := by ring
  have e2 : x1 * x1 * (a0 + -a1 * (3 * x2 - x1) + a2 * (x2 - x1) * (5 * x2 - x1)) = x1 * x1 * (a0 - a1 * (3 * x2 - x1) + a2 * (x2 - x1) * (5 * x2 - x1)) := by ring
  have e3 : x2 * x2 * (a0 - -a1 * (3 * x1 - x2) + a2 * (x1 - x2) * (5 * x1 - x2)) = x2 * x2 * (a0 + a1 * (3 * x1 - x2) + a2 * (x1 - x2) * (5 * x1 - x2)) := by ring
  rw [e1, e2, e3]

/-- **C112.** The model of Redlich and Kister is not one of them: unless its second parameter is zero, the activity coefficients depend on which
of the two species is given first. -/
theorem C112_redlichKister_wrong (a0 a1 a2 : ℝ) (h : a1 ≠ 0) (s t : Species ℝ) : ¬ OrderFree (redlichKister a0 a1 a2) [s, t] := by
  intro hf
  obtain ⟨f', h1, h2⟩ := hf [1, 0] (List.Perm.swap _ _ _) _ rfl
  have hf' : redlichKister a0 a1 a2 (reorder [1, 0] [s, t]) = redlichKister a0 a1 a2 [t, s] := rfl
  rw [hf'] at h1
  cases h1
  obtain ⟨m', h3, h4⟩ := h2 300 100000 [1, 0] ⟨0, 0, 0, 0, 0, 0, 0, [0, 0], [0, 0]⟩ rfl rfl rfl _ rfl
  cases h3
  have h5 := congrArg (fun p : AProps ℝ => p.ln_g.getD 0 0) h4
  simp [reorderProps, reorder] at h5
  apply h
  linarith

/-! ## Static variables -/

/-- **C112.** The model of Rumpf et al. remembers where the ions were in the phase it was first evaluated for: after an evaluation for a brine of calcium chloride with the
calcium first, the value for the same brine with the chloride first is wrong. -/
theorem C112_static_wrong (rho0 eps0 : ℝ) (base : Model) (hb : Base [] rho0 eps0 base) :
    ∃ f g r, chain [base, Activity.rumpf co2] (carbonated ⟨c!"Ca++", caPlus, 2⟩ ⟨c!"Cl-", clMinus, -1⟩) = .ok f ∧
      chain [base, Activity.rumpf co2] (carbonated ⟨c!"Cl-", clMinus, -1⟩ ⟨c!"Ca++", caPlus, 2⟩) = .ok g ∧
      f 300 100000 [1, waterMolarMass, 2 * waterMolarMass, waterMolarMass] (newMem {}) = .ok r ∧
      lnG (g 300 100000 [1, 2 * waterMolarMass, waterMolarMass, waterMolarMass] (newMem {})) 3 = r.props.ln_g.getD 3 0 ∧
      lnG (g 300 100000 [1, 2 * waterMolarMass, waterMolarMass, waterMolarMass] (newMem r.world)) 3 ≠ r.props.ln_g.getD 3 0 := by
  have hM : (waterMolarMass : ℝ) ≠ 0 := by unfold waterMolarMass; norm_num
  obtain ⟨f, fr, mix, st, r0, hf, hfr, he, hw, hfit, heq, hch, hms, hT⟩ := rumpf_chain rho0 eps0 base hb
    ⟨c!"Ca++", caPlus, 2⟩ ⟨c!"Cl-", clMinus, -1⟩ (by norm_num) (by norm_num) (by decide +kernel) (by decide +kernel) 300 100000
    1 waterMolarMass (2 * waterMolarMass) waterMolarMass one_ne_zero {}
  obtain ⟨g, gr, mix1, st1, r1, hg, hgr, he1, hw1, hfit1, heq1, hch1, hms1, hT1⟩ := rumpf_chain rho0 eps0 base hb
    ⟨c!"Cl-", clMinus, -1⟩ ⟨c!"Ca++", caPlus, 2⟩ (by norm_num) (by norm_num) (by decide +kernel) (by decide +kernel) 300 100000
    1 (2 * waterMolarMass) waterMolarMass waterMolarMass one_ne_zero {}
  have hidx := co2_index ⟨c!"Ca++", caPlus, 2⟩ ⟨c!"Cl-", clMinus, -1⟩ (by decide +kernel) (by decide +kernel)
  have hidx1 := co2_index ⟨c!"Cl-", clMinus, -1⟩ ⟨c!"Ca++", caPlus, 2⟩ (by decide +kernel) (by decide +kernel)
  obtain ⟨i, hi, hev⟩ := corrector_eval (Activity.rumpf co2) co2 (.rumpf co2) _ fr hfr
  obtain ⟨v, world, hv⟩ := (hev 300 100000 [1, waterMolarMass, 2 * waterMolarMass, waterMolarMass] r0 hfit rfl).2 mix st he
  set r := overwrite { r0 with world := world } st i v with hr
  obtain ⟨g', gr', mix2, st2, r2, hg', hgr', he2, hw2, hfit2, heq2, hch2, hms2, hT2⟩ := rumpf_chain rho0 eps0 base hb
    ⟨c!"Cl-", clMinus, -1⟩ ⟨c!"Ca++", caPlus, 2⟩ (by norm_num) (by norm_num) (by decide +kernel) (by decide +kernel) 300 100000
    1 (2 * waterMolarMass) waterMolarMass waterMolarMass one_ne_zero r.world
  rw [hg] at hg'
  cases hg'
  rw [hgr] at hgr'
  cases hgr'
  have e1 : caPlus.equivalent caPlus = true := by decide +kernel
  have e2 : ∀ q ∈ [naPlus, kPlus, mgPlus], q.equivalent caPlus = false ∧ q.equivalent clMinus = false := by decide +kernel
  have e3 : clMinus.equivalent caPlus = false := by decide +kernel
  have e4 : clMinus.equivalent clMinus = true := by decide +kernel
  have e5 : caPlus.equivalent clMinus = false := by decide +kernel
  have hna := e2 naPlus (by simp)
  have hk := e2 kPlus (by simp)
  have hmg := e2 mgPlus (by simp)
  -- the value of a new process, for both orders
  have hvalue : ∀ (charged : List (Species ℝ)) (ms : List ℝ), (charged = [⟨c!"Ca++", caPlus, 2⟩, ⟨c!"Cl-", clMinus, -1⟩] ∧ ms = [1, 2]) ∨
      (charged = [⟨c!"Cl-", clMinus, -1⟩, ⟨c!"Ca++", caPlus, 2⟩] ∧ ms = [2, 1]) →
      rumpfValue 300 (fun k => ionOf charged ms (Activity.rumpfIons.getD k naPlus)) = rumpfValue 300 (fun k => if k = 2 then 1 else if k = 4 then 2 else 0) := by
    intro charged ms h
    apply rumpfValue_congr
    intro k hk5
    rcases h with ⟨rfl, rfl⟩ | ⟨rfl, rfl⟩ <;> unfold ionOf Activity.rumpfIons <;> interval_cases k <;> simp [e1, e3, e4, e5, hna, hk, hmg]
  have hms' : st.ms = [1, 2] := by rw [hms]; simp [hM]
  have hms1' : st1.ms = [2, 1] := by rw [hms1]; simp [hM]
  have hms2' : st2.ms = [2, 1] := by rw [hms2]; simp [hM]
  have hfresh : r.props.ln_g.getD 3 0 = rumpfValue 300 (fun k => if k = 2 then 1 else if k = 4 then 2 else 0) := by
    have := (C63_first_partial co2 (carbonated ⟨c!"Ca++", caPlus, 2⟩ ⟨c!"Cl-", clMinus, -1⟩) r0 hfit mix st he (by rw [hms, hch]; rfl) 300 100000 [1, waterMolarMass, 2 * waterMolarMass, waterMolarMass] rfl 3 hidx).1
      (.inl (by rw [hw])) fr hfr
    rw [hv, hT, hvalue _ _ (.inl ⟨hch, hms'⟩)] at this
    exact this
  refine ⟨f, g, r, hf, hg, by rw [heq, hv], ?_, ?_⟩
  · rw [heq1, (C63_first_partial co2 (carbonated ⟨c!"Cl-", clMinus, -1⟩ ⟨c!"Ca++", caPlus, 2⟩) r1 hfit1 mix1 st1 he1 (by rw [hms1, hch1]; rfl) 300 100000 _ rfl 3 hidx1).1 (.inl (by rw [hw1])) gr hgr, hT1,
      hvalue _ _ (.inr ⟨hch1, hms1'⟩), hfresh]
  · have hset : r.world.rumpf = some (ionIndices mix Activity.rumpfIons) := by
      unfold Activity.rumpf at hfr
      rw [hidx] at hfr
      simp only [Res.bind_ok', Res.ok.injEq] at hfr
      have h := hv
      rw [← hfr] at h
      beta_reduce at h
      rw [if_neg (by rw [sizes_ok (species := carbonated ⟨c!"Ca++", caPlus, 2⟩ ⟨c!"Cl-", clMinus, -1⟩) hfit rfl]; exact Bool.false_ne_true), he] at h
      simp only [Res.ok.injEq] at h
      rw [← h]
      simp [overwrite, hw, Activity.rumpfIons]
    rw [heq2, hfresh]
    unfold Activity.rumpf at hgr
    rw [hidx1] at hgr
    simp only [Res.bind_ok', Res.ok.injEq] at hgr
    rw [← hgr]
    beta_reduce
    rw [if_neg (by rw [sizes_ok (species := carbonated ⟨c!"Cl-", clMinus, -1⟩ ⟨c!"Ca++", caPlus, 2⟩) hfit2 rfl]; exact Bool.false_ne_true), he2]
    simp only [lnG, propsOf, overwrite, hw2, hset, Option.getD_some]
    rw [getD_set _ _ _ _ (by rw [hfit2.1]; norm_num), if_pos rfl, hT2, rumpfValue_congr _ _ (fun k => if k = 2 then 2 else if k = 4 then 1 else 0) (fun k hk5 => ?_)]
    · unfold rumpfValue
      norm_num
    · unfold ionMolality ionIndices
      rw [hch, hch2, hms2']
      unfold Activity.rumpfIons findWithFormula Chem.indexfn
      interval_cases k <;> simp [e1, e3, e4, e5, hna, hk, hmg, List.findIdx_cons]

/-! ## Cubic equations of state -/

section Cubic

open CubicEOS ActivityCubicEOS

variable {m n : Nat}

/-- The same equation of state for the species in another order. -/
def relabel (σ : Fin m ≃ Fin n) (e : Eos n) : Eos m :=
  { fluidtype := e.fluidtype, model := e.model, method := e.method, Tcr := e.Tcr ∘ σ, Pcr := e.Pcr ∘ σ, omega := e.omega ∘ σ
    interaction := fun T => relabelIp σ (e.interaction T) }

section Parts

variable (σ : Fin m ≃ Fin n) (e : Eos n) (T P : ℝ) (x : Fin n → ℝ)

theorem aij_relabel (i j : Fin m) : aij (relabel σ e) T i j = aij e T (σ i) (σ j) ∧ aijT (relabel σ e) T i j = aijT e T (σ i) (σ j) ∧
    aijTT (relabel σ e) T i j = aijTT e T (σ i) (σ j) := by
  have hr : r (relabel σ e) T i j = r e T (σ i) (σ j) := by
    unfold r relabel relabelIp
    dsimp only
    cases (e.interaction T).k <;> rfl
  have hrT : rT (relabel σ e) T i j = rT e T (σ i) (σ j) := by
    unfold rT relabel relabelIp
    dsimp only
    cases (e.interaction T).kT <;> rfl
  have hrTT : rTT (relabel σ e) T i j = rTT e T (σ i) (σ j) := by
    unfold rTT relabel relabelIp
    dsimp only
    cases (e.interaction T).kTT <;> rfl
  refine ⟨?_, ?_, ?_⟩
  · show r (relabel σ e) T i j * s e T (σ i) (σ j) = _
    rw [hr]
    rfl
  · show rT (relabel σ e) T i j * s e T (σ i) (σ j) + r (relabel σ e) T i j * sT e T (σ i) (σ j) = _
    rw [hr, hrT]
    rfl
  · show rTT (relabel σ e) T i j * s e T (σ i) (σ j) + 2 * rT (relabel σ e) T i j * sT e T (σ i) (σ j) + r (relabel σ e) T i j * sTT e T (σ i) (σ j) = _
    rw [hr, hrT, hrTT]
    rfl

theorem sum2_relabel (f : Fin n → Fin n → ℝ) : ∑ i, ∑ j, f (σ i) (σ j) = ∑ i, ∑ j, f i j := by
  rw [← Equiv.sum_comp σ]
  exact Finset.sum_congr rfl fun i _ => Equiv.sum_comp σ (f (σ i))

theorem amix_relabel : amix (relabel σ e) T (x ∘ σ) = amix e T x ∧ amixT (relabel σ e) T (x ∘ σ) = amixT e T x ∧ amixTT (relabel σ e) T (x ∘ σ) = amixTT e T x := by
  refine ⟨?_, ?_, ?_⟩
  · unfold amix
    simp only [(aij_relabel σ e T _ _).1, Function.comp]
    exact sum2_relabel σ fun i j => x i * x j * aij e T i j
  · unfold amixT
    simp only [(aij_relabel σ e T _ _).2.1, Function.comp]
    exact sum2_relabel σ fun i j => x i * x j * aijT e T i j
  · unfold amixTT
    simp only [(aij_relabel σ e T _ _).2.2, Function.comp]
    exact sum2_relabel σ fun i j => x i * x j * aijTT e T i j

theorem bmix_relabel : bmix (relabel σ e) (x ∘ σ) = bmix e x := Equiv.sum_comp σ fun i => x i * bbar e i

theorem abar_relabel (i : Fin m) : abar (relabel σ e) T (x ∘ σ) i = abar e T x (σ i) := by
  unfold abar
  rw [(amix_relabel σ e T x).1]
  simp only [(aij_relabel σ e T _ _).1, Function.comp]
  rw [Equiv.sum_comp σ fun j => 2 * x j * aij e T (σ i) j]

theorem beta_relabel : beta (relabel σ e) T P (x ∘ σ) = beta e T P x ∧ betaT (relabel σ e) T P (x ∘ σ) = betaT e T P x ∧
    betaP (relabel σ e) T P (x ∘ σ) = betaP e T P x := by
  unfold betaT betaP beta
  rw [bmix_relabel]
  exact ⟨rfl, rfl, rfl⟩

theorem q_relabel : q (relabel σ e) T (x ∘ σ) = q e T x ∧ qT (relabel σ e) T (x ∘ σ) = qT e T x ∧ qTT (relabel σ e) T (x ∘ σ) = qTT e T x := by
  unfold qTT qT q
  rw [bmix_relabel, (amix_relabel σ e T x).1, (amix_relabel σ e T x).2.1, (amix_relabel σ e T x).2.2]
  exact ⟨rfl, rfl, rfl⟩

theorem evaluate_relabel (props : Props n) (Z : ℝ) :
    CubicEOS.evaluate (relabel σ e) (relabelProps σ props) T P (x ∘ σ) Z = relabelProps σ (CubicEOS.evaluate e props T P x Z) := by
  unfold CubicEOS.evaluate relabelProps
  simp only [(beta_relabel σ e T P x).1, (beta_relabel σ e T P x).2.1, (beta_relabel σ e T P x).2.2, (q_relabel σ e T x).1, (q_relabel σ e T x).2.1,
    (q_relabel σ e T x).2.2, (amix_relabel σ e T x).1, bmix_relabel, abar_relabel]
  rfl

theorem compute_relabel (solve3 : ℝ → ℝ → ℝ → List ℝ) (solve4 : List ℝ → List ℝ) (props out : Props n) (h : compute solve3 solve4 e props T P x = .ok out) :
    compute solve3 solve4 (relabel σ e) (relabelProps σ props) T P (x ∘ σ) = .ok (relabelProps σ out) := by
  have hall : (∀ i, (x ∘ σ) i ≤ 0) ↔ ∀ i, x i ≤ 0 := ⟨fun h i => by simpa using h (σ.symm i), fun h i => h (σ i)⟩
  have hid : ∀ roots, identify solve4 (relabel σ e) T P (x ∘ σ) roots = identify solve4 e T P x roots := by
    intro roots
    unfold identify
    rw [bmix_relabel, (amix_relabel σ e T x).1]
    rfl
  unfold compute at h ⊢
  simp only at h
  simp only [hall, (beta_relabel σ e T P x).1, (q_relabel σ e T x).1, hid, evaluate_relabel]
  simp only [show (relabel σ e).model = e.model from rfl, show (relabel σ e).fluidtype = e.fluidtype from rfl]
  split at h
  · rename_i h0
    cases h
    rw [if_pos h0]
  · rename_i h0
    rw [if_neg h0]
    split at h
    · rename_i h1
      rw [if_pos h1]
      split at h
      · rename_i f hf
        split at h
        · rename_i h2
          rw [if_pos h2]
          cases h
          rfl
        · rename_i h2
          rw [if_neg h2]
          cases h
          rfl
      · cases h
      · cases h
    · cases h

end Parts

theorem mapM_get {α β : Type} (g : α → Res β) (l l' : List α) (σ : Fin l'.length ≃ Fin l.length) (hs : SameSpecies l l' σ) (r : List β)
    (h : l.mapM (m := Res) g = .ok r) : ∃ r', l'.mapM (m := Res) g = .ok r' ∧ ∀ (d : β) (k : Fin l'.length), r'.getD k d = r.getD (σ k) d := by
  rw [mapM_ok_iff] at h
  have hl := h.length_eq
  have hget := (List.forall₂_iff_get.mp h).2
  let r' : List β := List.ofFn fun k : Fin l'.length => r[(σ k).val]'(by rw [← hl]; exact (σ k).isLt)
  refine ⟨r', ?_, ?_⟩
  · rw [mapM_ok_iff, List.forall₂_iff_get]
    refine ⟨by simp [r'], ?_⟩
    intro i hi hi'
    have e : r'.get ⟨i, hi'⟩ = r[(σ ⟨i, hi⟩).val]'(by rw [← hl]; exact (σ ⟨i, hi⟩).isLt) := by simp [r']
    rw [e, hs ⟨i, hi⟩]
    exact hget _ (σ ⟨i, hi⟩).isLt (by rw [← hl]; exact (σ ⟨i, hi⟩).isLt)
  · intro d k
    have h1 : (k : Nat) < r'.length := by simp [r']
    have h2 : ((σ k : Fin l.length) : Nat) < r.length := by rw [← hl]; exact (σ k).isLt
    rw [List.getD_eq_getElem?_getD, List.getD_eq_getElem?_getD, List.getElem?_eq_getElem h1, List.getElem?_eq_getElem h2, Option.getD_some, Option.getD_some]
    simp [r']

/-- **C112.** The same for the cubic equations of state, with the interaction parameters in the order of the species, when the species all have the same
state of aggregation. -/
theorem C112_cubic (registry : List Registries.Substance) (kind : Kind) (method : Method) (species species' : List Sp) (σ : Fin species'.length ≃ Fin species.length)
    (hs : SameSpecies species species' σ) (haggregate : ∀ s ∈ species, ∀ t ∈ species, s.aggregate = t.aggregate) (ip : ℝ → Ip species.length) (e : Eos species.length)
    (he : build registry kind method species ip = .ok e) : ∃ e', build registry kind method species' (fun T => relabelIp σ (ip T)) = .ok e' ∧
      ∀ (solve3 : ℝ → ℝ → ℝ → List ℝ) (solve4 : List ℝ → List ℝ) (res : Props species.length) (T P : ℝ) (x : Fin species.length → ℝ) out,
        eval solve3 solve4 e res T P x = .ok out →
          eval solve3 solve4 e' (relabelProps σ res) T P (x ∘ σ) = .ok (relabelProps σ out.1, relabelActivity σ out.2) := by
  unfold build at he ⊢
  obtain ⟨data, h1, he⟩ := bind_ok he
  obtain ⟨fluid, h2, he⟩ := bind_ok he
  cases he
  obtain ⟨data', h3, h4⟩ := mapM_get _ species species' σ hs data h1
  have h5 : fluidOf species' = .ok fluid := by
    have hl : species'.length = species.length := by simpa using Fintype.card_congr σ
    cases species' with
    | nil =>
      cases species with
      | nil => exact h2
      | cons s l => simp at hl
    | cons t l' =>
      cases species with
      | nil => simp at hl
      | cons s l =>
        have : t.aggregate = s.aggregate := by
          have h0 := hs ⟨0, by simp⟩
          have ht : t = (s :: l).get (σ ⟨0, by simp⟩) := h0
          rw [ht]
          exact haggregate _ (List.get_mem _ _) _ List.mem_cons_self
        unfold fluidOf at h2 ⊢
        simp only at h2 ⊢
        rw [this, h2]
  rw [h3, h5]
  simp only [Res.bind_ok']
  refine ⟨_, rfl, ?_⟩
  intro solve3 solve4 res T P x out hout
  set e0 : Eos species.length := ⟨fluid, kind, method, fun i => ((data.getD i ⟨0, 0, 0⟩).Tcr : ℝ), fun i => ((data.getD i ⟨0, 0, 0⟩).Pcr : ℝ),
    fun i => ((data.getD i ⟨0, 0, 0⟩).omega : ℝ), ip⟩ with he0
  have heq : (⟨fluid, kind, method, fun i => ((data'.getD i ⟨0, 0, 0⟩).Tcr : ℝ), fun i => ((data'.getD i ⟨0, 0, 0⟩).Pcr : ℝ),
      fun i => ((data'.getD i ⟨0, 0, 0⟩).omega : ℝ), fun T => relabelIp σ (ip T)⟩ : Eos species'.length) = relabel σ e0 := by
    unfold relabel
    simp only [he0, h4]
    rfl
  rw [heq]
  unfold eval at hout ⊢
  obtain ⟨p, h6, hout⟩ := bind_ok hout
  cases hout
  rw [compute_relabel σ e0 T P x solve3 solve4 res p h6]
  rfl

/-- **C112.** With species in different states of aggregation the first species decides: a gas with a species that is neither a gas nor a liquid can be used when the
gas is given first, and is refused when it is given second; a gas with a liquid is a vapour or a liquid. -/
theorem C112_cubic_wrong (registry : List Registries.Substance) (kind : Kind) (method : Method) (s t : Sp) (hs : s.aggregate = .gas) (c d : Registries.Data)
    (hc : critical registry s = .ok c) (hd : critical registry t = .ok d) (ip : ℝ → Ip 2) :
    (∃ e, build registry kind method [s, t] ip = .ok e ∧ e.fluidtype = .vapor) ∧
    (t.aggregate = .other → build registry kind method [t, s] ip = .throw) ∧
    (t.aggregate = .liquid → ∃ e, build registry kind method [t, s] ip = .ok e ∧ e.fluidtype = .liquid) := by
  have h1 : [s, t].mapM (m := Res) (critical registry) = .ok [c, d] := (mapM_ok_iff _ _ _).mpr (.cons hc (.cons hd .nil))
  have h2 : [t, s].mapM (m := Res) (critical registry) = .ok [d, c] := (mapM_ok_iff _ _ _).mpr (.cons hd (.cons hc .nil))
  refine ⟨?_, ?_, ?_⟩
  · unfold build
    rw [h1]
    simp only [Res.bind_ok', fluidOf, hs]
    exact ⟨_, rfl, rfl⟩
  · intro ht
    unfold build
    rw [h2]
    simp only [Res.bind_ok', fluidOf, ht]
    rfl
  · intro ht
    unfold build
    rw [h2]
    simp only [Res.bind_ok', fluidOf, ht]
    exact ⟨_, rfl, rfl⟩

/-- Carbon dioxide and a second gas in both orders. -/
example : SameSpecies [carbonDioxide, ⟨c!"CO2", c!"CO2", c!"CO2*", .gas⟩] [⟨c!"CO2", c!"CO2", c!"CO2*", .gas⟩, carbonDioxide] (Equiv.swap (0 : Fin 2) 1) ∧
    ∃ e, build registry .pengRobinson .none [carbonDioxide, ⟨c!"CO2", c!"CO2", c!"CO2*", .gas⟩] (fun _ => {}) = .ok e := by
  refine ⟨?_, ?_⟩
  · intro k
    fin_cases k <;> rfl
  · unfold build
    rw [show [carbonDioxide, ⟨c!"CO2", c!"CO2", c!"CO2*", .gas⟩].mapM (m := Res) (critical registry) =
      .ok [⟨30420 / 100, 7383000, 224 / 1000⟩, ⟨30420 / 100, 7383000, 224 / 1000⟩] by decide +kernel]
    exact ⟨_, rfl⟩

/-- A gas and a mineral of the same substance, which `C112_cubic_wrong` is about. -/
example : critical registry carbonDioxide = .ok ⟨30420 / 100, 7383000, 224 / 1000⟩ ∧ carbonDioxide.aggregate = .gas ∧
    critical registry ⟨c!"CO2", c!"CO2", c!"CO2(s)", .other⟩ = .ok ⟨30420 / 100, 7383000, 224 / 1000⟩ := by
  refine ⟨by decide +kernel, rfl, by decide +kernel⟩

end Cubic

end Verif.SpeciesOrder
