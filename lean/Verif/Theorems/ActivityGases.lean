import Verif.Theorems.ActivityDebyeHuckel

/-!
# C62: chains of activity models. C63: the models of Rumpf et al. and of Duan and Sun
-/

namespace Verif.Activity

open Verif.Aqueous Verif.ChemicalProps

/-- The models for one dissolved species, with the formula of that species. -/
inductive Corrector : Model → Formula → Prop
  | setschenow (f : Formula) (b : ℝ) : Corrector (setschenow f b) f
  | drummond (f : Formula) (p : DrummondParams) : Corrector (drummond f p) f
  | rumpf (f : Formula) : Corrector (rumpf f) f
  | duanSun (f : Formula) : Corrector (duanSun f) f

/-- The base aqueous models that export the aqueous mixture and its state. -/
inductive Base (reactions : List Registries.Reaction) (rho0 eps0 : ℝ) : Model → Prop
  | debyeHuckel (p : DHParams) : Base reactions rho0 eps0 (debyeHuckel reactions rho0 eps0 p)
  | hkf (p : HKFParams) : Base reactions rho0 eps0 (hkf reactions rho0 eps0 p)

/-- The models that export nothing. -/
inductive Plain : Model → Prop
  | idealSolution : Plain idealSolution
  | idealGas : Plain idealGas
  | idealAqueous : Plain idealAqueous
  | redlichKister (a0 a1 a2 : ℝ) : Plain (redlichKister a0 a1 a2)

theorem corrector_eval (model : Model) (gas : Formula) (hc : Corrector model gas) (species : List (Species ℝ)) (f : Fn)
    (hf : model species = .ok f) :
    ∃ i, indexWithFormula species gas = .ok i ∧ ∀ T P x m, Fits m species.length → x.length = species.length →
      (m.extra = none → f T P x m = .throw) ∧
      ∀ mix st, m.extra = some (mix, st) → ∃ g world, f T P x m = .ok (overwrite { m with world := world } st i g) := by
  cases hc with
  | setschenow _ b =>
    unfold setschenow at hf
    cases hi : indexWithFormula species gas with
    | throw => rw [hi] at hf; cases hf
    | ub => rw [hi] at hf; cases hf
    | ok i =>
      rw [hi] at hf
      simp only [Res.bind_ok', Res.ok.injEq] at hf
      refine ⟨i, rfl, fun T P x m hm hx => ⟨fun he => ?_, fun mix st he => ⟨Real.log 10 * b * st.Is, m.world, ?_⟩⟩⟩
      · rw [← hf]
        simp only [(fits_iff' m species.length).mpr hm, hx]
        rw [if_neg (by simp), he]
      · rw [← hf]
        simp only [(fits_iff' m species.length).mpr hm, hx]
        rw [if_neg (by simp), he]
        cases m; cases he; rfl
  | drummond _ p =>
    unfold drummond at hf
    cases hi : indexWithFormula species gas with
    | throw => rw [hi] at hf; cases hf
    | ub => rw [hi] at hf; cases hf
    | ok i =>
      rw [hi] at hf
      simp only [Res.bind_ok', Res.ok.injEq] at hf
      refine ⟨i, rfl, fun T P x m hm hx => ⟨fun he => ?_, fun mix st he =>
        ⟨(p.a1 + p.a2 * st.T + p.a3 / st.T) * st.Is - (p.a4 + p.a5 * st.T) * st.Is / (st.Is + 1), m.world, ?_⟩⟩⟩
      · rw [← hf]
        simp only [(fits_iff' m species.length).mpr hm, hx]
        rw [if_neg (by simp), he]
      · rw [← hf]
        simp only [(fits_iff' m species.length).mpr hm, hx]
        rw [if_neg (by simp), he]
        cases m; cases he; rfl
  | rumpf =>
    unfold rumpf at hf
    cases hi : indexWithFormula species gas with
    | throw => rw [hi] at hf; cases hf
    | ub => rw [hi] at hf; cases hf
    | ok i =>
      rw [hi] at hf
      simp only [Res.bind_ok', Res.ok.injEq] at hf
      refine ⟨i, rfl, fun T P x m hm hx => ⟨fun he => ?_, fun mix st he => ?_⟩⟩
      · rw [← hf]
        simp only [(fits_iff' m species.length).mpr hm, hx]
        rw [if_neg (by simp), he]
      · rw [← hf]
        simp only [(fits_iff' m species.length).mpr hm, hx]
        rw [if_neg (by simp)]
        cases m
        cases he
        exact ⟨_, _, rfl⟩
  | duanSun =>
    unfold duanSun at hf
    cases hi : indexWithFormula species gas with
    | throw => rw [hi] at hf; cases hf
    | ub => rw [hi] at hf; cases hf
    | ok i =>
      rw [hi] at hf
      simp only [Res.bind_ok', Res.ok.injEq] at hf
      refine ⟨i, rfl, fun T P x m hm hx => ⟨fun he => ?_, fun mix st he => ?_⟩⟩
      · rw [← hf]
        simp only [(fits_iff' m species.length).mpr hm, hx]
        rw [if_neg (by simp), he]
      · rw [← hf]
        simp only [(fits_iff' m species.length).mpr hm, hx]
        rw [if_neg (by simp)]
        cases m
        cases he
        exact ⟨_, _, rfl⟩

theorem plain_eval (model : Model) (hp : Plain model) (species : List (Species ℝ)) (f : Fn) (hf : model species = .ok f) (T P : ℝ)
    (x : List ℝ) (m : Mem) (hm : Fits m species.length) (hx : x.length = species.length) :
    ∃ r, f T P x m = .ok r ∧ r.extra = m.extra ∧ r.world = m.world ∧ Fits r species.length := by
  cases hp with
  | idealSolution =>
    cases hf
    simp only [(fits_iff' m species.length).mpr hm, hx]
    rw [if_neg (by simp)]
    exact ⟨_, rfl, rfl, rfl, by simp [AProps.zero, hm.1], by simpa using hx⟩
  | idealGas =>
    cases hf
    simp only [(fits_iff' m species.length).mpr hm, hx]
    rw [if_neg (by simp)]
    exact ⟨_, rfl, rfl, rfl, by simp [AProps.zero, hm.1], by simpa using hx⟩
  | idealAqueous =>
    unfold idealAqueous at hf
    cases hi : indexWithFormula species waterFormula with
    | throw => rw [hi] at hf; cases hf
    | ub => rw [hi] at hf; cases hf
    | ok i =>
      rw [hi] at hf
      simp only [Res.bind_ok', Res.ok.injEq] at hf
      rw [← hf]
      simp only [(fits_iff' m species.length).mpr hm, hx]
      rw [if_neg (by simp)]
      exact ⟨_, rfl, rfl, rfl, by simp [AProps.zero, hm.1], by simpa using hx⟩
  | redlichKister a0 a1 a2 =>
    unfold redlichKister at hf
    by_cases h2 : species.length ≠ 2
    · rw [if_pos h2] at hf; cases hf
    rw [if_neg h2] at hf
    simp only [Res.ok.injEq] at hf
    rw [← hf]
    simp only [(fits_iff' m species.length).mpr hm, hx]
    rw [if_neg (by simp)]
    refine ⟨_, rfl, rfl, rfl, by simp [hm.1], ?_⟩
    simp [hm.1, hx]

theorem base_eval (reactions : List Registries.Reaction) (rho0 eps0 : ℝ) (model : Model) (hb : Base reactions rho0 eps0 model) (species : List (Species ℝ)) (f : Fn) (hf : model species = .ok f) (T P : ℝ)
    (x : List ℝ) (m : Mem) (hm : Fits m species.length) (hx : x.length = species.length) :
    ∃ mix st r, construct reactions rho0 eps0 species = .ok mix ∧ mix.state T P x = .ok st ∧ f T P x m = .ok r ∧
      r.extra = some (mix, st) ∧ r.world = m.world ∧ Fits r species.length := by
  cases hb with
  | debyeHuckel p =>
    unfold debyeHuckel at hf
    cases hmix : construct reactions rho0 eps0 species with
    | throw => rw [hmix] at hf; cases hf
    | ub => rw [hmix] at hf; cases hf
    | ok mix =>
      rw [hmix] at hf
      simp only [Res.bind_ok', Res.ok.injEq] at hf
      obtain ⟨st, hst, -⟩ := state_eq reactions rho0 eps0 species mix hmix T P x hx
      rw [← hf]
      simp only [(fits_iff' m species.length).mpr hm, hx, hst]
      rw [if_neg (by simp)]
      simp only [Res.bind_ok']
      refine ⟨mix, st, _, rfl, hst, rfl, rfl, rfl, ?_⟩
      have h1 : ∀ (L : List Ion) (q : List ℝ × List ℝ), (L.foldl (dhTurn (dhState st) st.m mix.idxWater) q).1.length = q.1.length ∧
          (L.foldl (dhTurn (dhState st) st.m mix.idxWater) q).2.length = q.2.length := by
        intro L
        induction L with
        | nil => intro q; exact ⟨rfl, rfl⟩
        | cons a L ih => intro q; rw [List.foldl_cons]; simpa [dhTurn] using ih (dhTurn (dhState st) st.m mix.idxWater q a)
      have h2 : ∀ (L : List (Nat × ℝ)) (q : List ℝ × List ℝ), (L.foldl (dhNeutral (dhState st) st.m) q).1.length = q.1.length ∧
          (L.foldl (dhNeutral (dhState st) st.m) q).2.length = q.2.length := by
        intro L
        induction L with
        | nil => intro q; exact ⟨rfl, rfl⟩
        | cons a L ih => intro q; rw [List.foldl_cons]; simpa [dhNeutral] using ih (dhNeutral (dhState st) st.m q a)
      constructor
      · simp only [(h2 _ _).1, List.length_set, (h1 _ _).1, hm.1]
      · simp only [(h2 _ _).2, List.length_set, (h1 _ _).2, hm.2]
  | hkf p =>
    unfold hkf at hf
    cases hmix : construct reactions rho0 eps0 species with
    | throw => rw [hmix] at hf; cases hf
    | ub => rw [hmix] at hf; cases hf
    | ok mix =>
      rw [hmix] at hf
      simp only [Res.bind_ok', Res.ok.injEq] at hf
      obtain ⟨st, hst, -, hml, -⟩ := state_eq reactions rho0 eps0 species mix hmix T P x hx
      rw [← hf]
      simp only [(fits_iff' m species.length).mpr hm, hx, hst]
      rw [if_neg (by simp)]
      simp only [Res.bind_ok']
      refine ⟨mix, st, _, rfl, hst, rfl, rfl, rfl, ?_⟩
      have h1 : ∀ (d : HKFState) (L : List Ion) (q : List ℝ × ℝ), (L.foldl (hkfTurn d) q).1.length = q.1.length := by
        intro d L
        induction L with
        | nil => intro q; rfl
        | cons a L ih =>
          intro q
          rw [List.foldl_cons, ih]
          unfold hkfTurn
          split <;> simp
      constructor
      · simp only [List.length_set, h1, foldl_set_length (fun j => j), hm.1]
      · simp only [List.length_set, List.length_zipWith, h1, foldl_set_length (fun j => j), hm.1, hml, min_self]

/-! ## C62 -/

theorem runAll_append (T P : ℝ) (x : List ℝ) (fs gs : List Fn) (m : Mem) :
    runAll T P x (fs ++ gs) m = Res.bind (runAll T P x fs m) (runAll T P x gs) := by
  induction fs generalizing m with
  | nil => rfl
  | cons f fs ih =>
    simp only [List.cons_append, runAll]
    cases f T P x m with
    | throw => rfl
    | ub => rfl
    | ok r => exact ih r

theorem mapM_ok_iff {α β : Type} (g : α → Res β) (l : List α) (r : List β) :
    l.mapM (m := Res) g = .ok r ↔ List.Forall₂ (fun a b => g a = .ok b) l r := by
  induction l generalizing r with
  | nil =>
    rw [List.mapM_nil]
    constructor
    · intro h; cases h; exact .nil
    · intro h; cases h; rfl
  | cons a l ih =>
    rw [List.mapM_cons]
    show Res.bind (g a) (fun b => Res.bind (l.mapM (m := Res) g) fun bs => .ok (b :: bs)) = .ok r ↔ _
    constructor
    · intro h
      cases hb : g a with
      | throw => rw [hb] at h; cases h
      | ub => rw [hb] at h; cases h
      | ok b =>
        rw [hb] at h
        simp only [Res.bind_ok'] at h
        cases hl : l.mapM (m := Res) g with
        | throw => rw [hl] at h; cases h
        | ub => rw [hl] at h; cases h
        | ok bs =>
          rw [hl] at h
          cases h
          exact .cons hb ((ih bs).mp hl)
    · intro h
      cases h with
      | cons hb hl => rw [hb, (ih _).mpr hl]; rfl

/-- **C62.** A chain evaluates its models one after the other, each on what the previous ones left; the first exception ends the
evaluation. -/
theorem C62_chain (models models' : List Model) (species : List (Species ℝ)) (f g : Fn) (hf : chain models species = .ok f)
    (hg : chain models' species = .ok g) :
    ∃ h, chain (models ++ models') species = .ok h ∧ ∀ T P x m, h T P x m = Res.bind (f T P x m) (g T P x) := by
  unfold chain at hf hg ⊢
  cases h1 : models.mapM (m := Res) fun model => model species with
  | throw => rw [h1] at hf; cases hf
  | ub => rw [h1] at hf; cases hf
  | ok fs =>
    cases h2 : models'.mapM (m := Res) fun model => model species with
    | throw => rw [h2] at hg; cases hg
    | ub => rw [h2] at hg; cases hg
    | ok gs =>
      rw [h1] at hf
      rw [h2] at hg
      simp only [Res.bind_ok', Res.ok.injEq] at hf hg
      have : (models ++ models').mapM (m := Res) (fun model => model species) = .ok (fs ++ gs) :=
        (mapM_ok_iff _ _ _).mpr (List.rel_append ((mapM_ok_iff _ _ _).mp h1) ((mapM_ok_iff _ _ _).mp h2))
      rw [this]
      refine ⟨_, rfl, fun T P x m => ?_⟩
      rw [runAll_append, ← hf, ← hg]

theorem C62_chain_single (model : Model) (species : List (Species ℝ)) (f : Fn) (hf : model species = .ok f) :
    ∃ h, chain [model] species = .ok h ∧ ∀ T P x m, h T P x m = f T P x m := by
  unfold chain
  rw [(mapM_ok_iff (fun model : Model => model species) [model] [f]).mpr (.cons hf .nil)]
  refine ⟨_, rfl, fun T P x m => ?_⟩
  simp only [runAll]
  cases f T P x m <;> rfl

/-- **C62.** A model for one dissolved species needs a base aqueous model before it: after models that export nothing (the ideal aqueous
model among them) evaluating it throws. -/
theorem C62_needs_base (plain : List Model) (hp : ∀ model ∈ plain, Plain model) (model : Model) (gas : Formula)
    (hc : Corrector model gas) (rest : List Model) (species : List (Species ℝ)) (f : Fn)
    (hf : chain (plain ++ model :: rest) species = .ok f) (T P : ℝ) (x : List ℝ) (m : Mem) (hm : Fits m species.length)
    (hx : x.length = species.length) (he : m.extra = none) : f T P x m = .throw := by
  unfold chain at hf
  cases h1 : (plain ++ model :: rest).mapM (m := Res) fun model => model species with
  | throw => rw [h1] at hf; cases hf
  | ub => rw [h1] at hf; cases hf
  | ok fs =>
    rw [h1] at hf
    simp only [Res.bind_ok', Res.ok.injEq] at hf
    have hF := (mapM_ok_iff _ _ _).mp h1
    rw [← hf]
    clear h1 hf
    induction plain generalizing fs m with
    | nil =>
      cases hF with
      | cons ha hrest =>
        simp only [runAll]
        obtain ⟨i, -, hev⟩ := corrector_eval model gas hc species _ ha
        rw [(hev T P x m hm hx).1 he]
        rfl
    | cons q plain ih =>
      cases hF with
      | cons ha hrest =>
        obtain ⟨r, hr, hre, -, hrf⟩ := plain_eval q (hp q List.mem_cons_self) species _ ha T P x m hm hx
        simp only [runAll, hr, Res.bind_ok']
        exact ih (fun q' hq' => hp q' (List.mem_cons_of_mem _ hq')) r hrf (by rw [hre, he]) _ hrest

/-- **C62.** The models for dissolved species after a base model change the species they are for and nothing else: the evaluation returns;
every other species keeps the activity and activity coefficient of the base model; the species of each of them has an activity equal to
its activity coefficient times its molality; the excess properties are those the base model left. -/
theorem C62_frame (reactions : List Registries.Reaction) (rho0 eps0 : ℝ) (base : Model) (hb : Base reactions rho0 eps0 base) (cs : List (Model × Formula)) (hcs : ∀ c ∈ cs, Corrector c.1 c.2)
    (species : List (Species ℝ)) (f0 f : Fn) (hf0 : base species = .ok f0)
    (hf : chain (base :: cs.map (·.1)) species = .ok f) (T P : ℝ) (x : List ℝ) (m : Mem) (hm : Fits m species.length)
    (hx : x.length = species.length) :
    ∃ mix st r0 r, construct reactions rho0 eps0 species = .ok mix ∧ mix.state T P x = .ok st ∧
      f0 T P x m = .ok r0 ∧ f T P x m = .ok r ∧ r.extra = some (mix, st) ∧
      (∀ j : Nat, (∀ c ∈ cs, indexWithFormula species c.2 ≠ .ok j) → r.props.ln_a.getD j 0 = r0.props.ln_a.getD j 0 ∧
        r.props.ln_g.getD j 0 = r0.props.ln_g.getD j 0) ∧
      (∀ j : Nat, (∃ c ∈ cs, indexWithFormula species c.2 = .ok j) →
        r.props.ln_a.getD j 0 = r.props.ln_g.getD j 0 + Real.log (st.m.getD j 0)) ∧
      r.props = { r0.props with ln_a := r.props.ln_a, ln_g := r.props.ln_g } := by
  unfold chain at hf
  cases h1 : (base :: cs.map (·.1)).mapM (m := Res) fun model => model species with
  | throw => rw [h1] at hf; cases hf
  | ub => rw [h1] at hf; cases hf
  | ok fs =>
    rw [h1] at hf
    simp only [Res.bind_ok', Res.ok.injEq] at hf
    have hF := (mapM_ok_iff _ _ _).mp h1
    cases hF with
    | cons ha hrest =>
      rename_i fb fcs
      rw [hf0] at ha
      cases ha
      obtain ⟨mix, st, r0, hmix, hst, hr0, he0, -, hfit⟩ := base_eval reactions rho0 eps0 base hb species f0 hf0 T P x m hm hx
      have key : ∀ (cs : List (Model × Formula)) (fcs : List Fn), (∀ c ∈ cs, Corrector c.1 c.2) →
          List.Forall₂ (fun model f => model species = .ok f) (cs.map (·.1)) fcs → ∀ q : Mem, q.extra = some (mix, st) →
          Fits q species.length → ∃ r, runAll T P x fcs q = .ok r ∧ r.extra = some (mix, st) ∧
          (∀ j : Nat, (∀ c ∈ cs, indexWithFormula species c.2 ≠ .ok j) → r.props.ln_a.getD j 0 = q.props.ln_a.getD j 0 ∧
            r.props.ln_g.getD j 0 = q.props.ln_g.getD j 0) ∧
          (∀ j : Nat, ((∃ c ∈ cs, indexWithFormula species c.2 = .ok j) ∨
            q.props.ln_a.getD j 0 = q.props.ln_g.getD j 0 + Real.log (st.m.getD j 0)) →
            r.props.ln_a.getD j 0 = r.props.ln_g.getD j 0 + Real.log (st.m.getD j 0)) ∧
          r.props = { q.props with ln_a := r.props.ln_a, ln_g := r.props.ln_g } := by
        intro cs
        induction cs with
        | nil =>
          intro fcs _ hF q hq _
          cases hF
          refine ⟨q, rfl, hq, fun j _ => ⟨rfl, rfl⟩, fun j hj => ?_, rfl⟩
          rcases hj with ⟨c, hc, -⟩ | hj
          · cases hc
          · exact hj
        | cons c cs ih =>
          intro fcs hcs hF q hq hqf
          cases hF with
          | cons ha hrest =>
            obtain ⟨i, hi, hev⟩ := corrector_eval c.1 c.2 (hcs c List.mem_cons_self) species _ ha
            obtain ⟨g, world, hg⟩ := (hev T P x q hqf hx).2 mix st hq
            have hil : i < species.length := by
              unfold indexWithFormula at hi
              simp only at hi
              split at hi
              · cases hi
              · cases hi; omega
            have hA : ∀ j, (overwrite { q with world := world } st i g).props.ln_a.getD j 0 =
                if j = i then g + Real.log (st.m.getD i 0) else q.props.ln_a.getD j 0 := fun j =>
              getD_set _ _ _ _ (by rw [hqf.2]; exact hil)
            have hG : ∀ j, (overwrite { q with world := world } st i g).props.ln_g.getD j 0 =
                if j = i then g else q.props.ln_g.getD j 0 := fun j =>
              getD_set _ _ _ _ (by rw [hqf.1]; exact hil)
            obtain ⟨r, r1, r2, r3, r4, r5⟩ := ih _ (fun c' hc' => hcs c' (List.mem_cons_of_mem _ hc')) hrest
              (overwrite { q with world := world } st i g) hq (by simpa [Fits, overwrite] using hqf)
            refine ⟨r, by simp only [runAll, hg, Res.bind_ok', r1], r2, fun j hj => ?_, fun j hj => ?_, ?_⟩
            · obtain ⟨e1, e2⟩ := r3 j fun c' hc' => hj c' (List.mem_cons_of_mem _ hc')
              have hji : j ≠ i := fun e => hj c List.mem_cons_self (by rw [hi, e])
              rw [e1, e2, hA, hG, if_neg hji, if_neg hji]
              exact ⟨rfl, rfl⟩
            · apply r4
              by_cases hji : j = i
              · right
                rw [hA, hG, if_pos hji, if_pos hji, hji]
              · rcases hj with ⟨c', hc', hj'⟩ | hj
                · rcases List.mem_cons.mp hc' with rfl | hc'
                  · rw [hi] at hj'
                    cases hj'
                    exact absurd rfl hji
                  · exact .inl ⟨c', hc', hj'⟩
                · right
                  rw [hA, hG, if_neg hji, if_neg hji]
                  exact hj
            · rw [r5]
              rfl
      obtain ⟨r, r1, r2, r3, r4, r5⟩ := key cs fcs hcs hrest r0 he0 hfit
      refine ⟨mix, st, r0, r, hmix, hst, hr0, ?_, r2, r3, fun j hj => r4 j (.inl hj), r5⟩
      rw [← hf]
      simp only [runAll, hr0, Res.bind_ok', r1]

/-! ## C63 -/

/-- The stoichiometric molality of the ion with a given formula, zero if there is none. -/
def ionOf (charged : List (Species ℝ)) (ms : List ℝ) (f : Formula) : ℝ :=
  match (charged.zip ms).find? fun q => f.equivalent q.1.formula with
  | some q => q.2
  | none => 0

theorem ionMolality_eq (charged : List (Species ℝ)) (ms : List ℝ) (hl : ms.length = charged.length) (f : Formula) :
    (if findWithFormula charged f < charged.length then ms.getD (findWithFormula charged f) 0 else 0) = ionOf charged ms f := by
  unfold findWithFormula Chem.indexfn ionOf
  induction charged generalizing ms with
  | nil => cases ms with
    | nil => rfl
    | cons a l => simp at hl
  | cons c cs ih =>
    cases ms with
    | nil => simp at hl
    | cons a ms =>
      rw [List.findIdx_cons, List.zip_cons_cons, List.find?_cons]
      cases hc : f.equivalent c.formula with
      | true => simp
      | false =>
        simp only [cond_false, List.length_cons, Nat.add_lt_add_iff_right, List.getD_cons_succ]
        exact ih ms (by simpa using hl)

/-- The ions of the model of Rumpf et al., and of that of Duan and Sun. -/
def rumpfIons : List Formula := [naPlus, kPlus, caPlus, mgPlus, clMinus]
def duanIons : List Formula := [naPlus, kPlus, caPlus, mgPlus, clMinus, so4Minus]

theorem duanSunValue_congr (T P : ℝ) (a b : Nat → ℝ) (h : ∀ k, k < 6 → a k = b k) : duanSunValue T P a = duanSunValue T P b := by
  unfold duanSunValue
  rw [h 0 (by norm_num), h 1 (by norm_num), h 2 (by norm_num), h 3 (by norm_num), h 4 (by norm_num), h 5 (by norm_num)]

theorem rumpfValue_congr (T : ℝ) (a b : Nat → ℝ) (h : ∀ k, k < 5 → a k = b k) : rumpfValue T a = rumpfValue T b := by
  unfold rumpfValue
  rw [h 0 (by norm_num), h 1 (by norm_num), h 2 (by norm_num), h 3 (by norm_num), h 4 (by norm_num)]

theorem ionMolality_ionOf (mix : Mixture ℝ) (ms : List ℝ) (hl : ms.length = mix.ix.charged.length) (fs : List Formula) (k : Nat)
    (hk : k < fs.length) : ionMolality mix ms (ionIndices mix fs) k = ionOf mix.ix.charged ms (fs.getD k naPlus) := by
  unfold ionMolality ionIndices
  have : (fs.map fun f => findWithFormula mix.ix.charged f).getD k 0 = findWithFormula mix.ix.charged (fs.getD k naPlus) := by
    simp [hk]
  rw [this]
  exact ionMolality_eq mix.ix.charged ms hl (fs.getD k naPlus)

/-- **C63.** The two functions in terms of the ions: of Rumpf et al. with the parameter B at the temperature, and of Duan and Sun with the interaction
parameters λ and ζ at the temperature and pressure, weighted by the charges of the ions. -/
theorem C63_formulas (T P : ℝ) (mol : Formula → ℝ) :
    (rumpfValue T fun k => mol (rumpfIons.getD k naPlus)) =
      2 * (0.254 - 76.82 / T - 10656 / T ^ 2 + 6312000 / T ^ 3) * (mol naPlus + mol kPlus + 2 * mol caPlus + 2 * mol mgPlus)
        - 0.0084 * (mol naPlus + mol kPlus + mol caPlus + mol mgPlus) * mol clMinus ∧
    (duanSunValue T P fun k => mol (duanIons.getD k naPlus)) =
      2 * paramDuanSun T P lambdaCoeffs * (mol naPlus + mol kPlus + 2 * mol caPlus + 2 * mol mgPlus)
        + paramDuanSun T P zetaCoeffs * (mol naPlus + mol kPlus + mol caPlus + mol mgPlus) * mol clMinus - 0.07 * mol so4Minus := by
  constructor
  · simp only [rumpfValue, rumpfIons, List.getD_cons_zero, List.getD_cons_succ]
    ring
  · simp only [duanSunValue, duanIons, List.getD_cons_zero, List.getD_cons_succ]
    ring

/-- **C63.** In a process in which the model was not evaluated before, or was first evaluated for a phase with the ions in the same
positions, the ln activity coefficient is the published function of the molalities of the ions, found by their formulas. -/
theorem C63_first_partial (gas : Formula) (species : List (Species ℝ)) (m : Mem) (hm : Fits m species.length) (mix : Mixture ℝ)
    (st : State ℝ) (he : m.extra = some (mix, st)) (hl : st.ms.length = mix.ix.charged.length) (T P : ℝ) (x : List ℝ)
    (hx : x.length = species.length) (i : Nat) (hi : indexWithFormula species gas = .ok i) :
    (m.world.rumpf = none ∨ m.world.rumpf = some (ionIndices mix rumpfIons) → ∀ f, rumpf gas species = .ok f →
      lnG (f T P x m) i = rumpfValue st.T fun k => ionOf mix.ix.charged st.ms (rumpfIons.getD k naPlus)) ∧
    (m.world.duan = none ∨ m.world.duan = some (ionIndices mix duanIons) → ∀ f, duanSun gas species = .ok f →
      lnG (f T P x m) i = duanSunValue st.T st.P fun k => ionOf mix.ix.charged st.ms (duanIons.getD k naPlus)) := by
  have hil : i < species.length := by
    unfold indexWithFormula at hi
    simp only at hi
    split at hi
    · cases hi
    · cases hi; omega
  constructor
  · intro hw f hf
    have hidx : m.world.rumpf.getD (ionIndices mix rumpfIons) = ionIndices mix rumpfIons := by
      rcases hw with h | h <;> rw [h] <;> rfl
    unfold rumpf at hf
    rw [hi] at hf
    simp only [Res.bind_ok', Res.ok.injEq] at hf
    rw [← hf]
    simp only [(fits_iff' m species.length).mpr hm, hx]
    rw [if_neg (by simp), he]
    simp only [lnG, propsOf, overwrite]
    rw [getD_set _ _ _ _ (by rw [hm.1]; exact hil), if_pos rfl]
    rw [show [naPlus, kPlus, caPlus, mgPlus, clMinus] = rumpfIons from rfl, hidx]
    exact rumpfValue_congr _ _ _ fun k hk => ionMolality_ionOf mix st.ms hl rumpfIons k hk
  · intro hw f hf
    have hidx : m.world.duan.getD (ionIndices mix duanIons) = ionIndices mix duanIons := by
      rcases hw with h | h <;> rw [h] <;> rfl
    unfold duanSun at hf
    rw [hi] at hf
    simp only [Res.bind_ok', Res.ok.injEq] at hf
    rw [← hf]
    simp only [(fits_iff' m species.length).mpr hm, hx]
    rw [if_neg (by simp), he]
    simp only [lnG, propsOf, overwrite]
    rw [getD_set _ _ _ _ (by rw [hm.1]; exact hil), if_pos rfl]
    rw [show [naPlus, kPlus, caPlus, mgPlus, clMinus, so4Minus] = duanIons from rfl, hidx]
    exact duanSunValue_congr _ _ _ _ fun k hk => ionMolality_ionOf mix st.ms hl duanIons k hk

/-- One evaluation that returns, of any of the models, in a process: new properties, no exported state, the static variables of the
process. -/
def Evaluation (w w' : World) : Prop :=
  ∃ (model : Model) (species : List (Species ℝ)) (f : Fn) (T P : ℝ) (x : List ℝ) (m r : Mem),
    ((∃ g, Corrector model g) ∨ (∃ reactions rho0 eps0, Base reactions rho0 eps0 model) ∨ Plain model) ∧ model species = .ok f ∧ f T P x m = .ok r ∧ m.world = w ∧ r.world = w'

/-- What a process may evaluate between two moments. -/
inductive History : World → World → Prop
  | nil (w : World) : History w w
  | cons {w w' w'' : World} : Evaluation w w' → History w' w'' → History w w''

theorem evaluation_keeps (w w' : World) (h : Evaluation w w') :
    (∀ idx, w.rumpf = some idx → w'.rumpf = some idx) ∧ (∀ idx, w.duan = some idx → w'.duan = some idx) := by
  obtain ⟨model, species, f, T, P, x, m, r, hk, hf, hr, rfl, rfl⟩ := h
  rcases hk with ⟨g, hc⟩ | ⟨reactions, rho0, eps0, hb⟩ | hp
  · have hfx : Fits m species.length ∧ x.length = species.length := by
      by_contra hcon
      have : f T P x m = .ub := by
        have hneg : (!m.fits species.length || decide (x.length ≠ species.length)) = true := by
          rcases not_and_or.mp hcon with h | h
          · have : m.fits species.length = false := by
              cases hh : m.fits species.length
              · rfl
              · exact absurd ((fits_iff' m species.length).mp hh) h
            simp [this]
          · simp [h]
        cases hc <;>
        · first | unfold setschenow at hf | unfold drummond at hf | unfold rumpf at hf | unfold duanSun at hf
          cases hi : indexWithFormula species g with
          | throw => rw [hi] at hf; cases hf
          | ub => rw [hi] at hf; cases hf
          | ok i =>
            rw [hi] at hf
            simp only [Res.bind_ok', Res.ok.injEq] at hf
            rw [← hf]
            exact if_pos hneg
      rw [this] at hr
      cases hr
    obtain ⟨hm, hx⟩ := hfx
    cases he : m.extra with
    | none =>
      obtain ⟨i, -, hev⟩ := corrector_eval model g hc species f hf
      rw [(hev T P x m hm hx).1 he] at hr
      cases hr
    | some q =>
      obtain ⟨mix, st⟩ := q
      cases hc <;>
      · first | unfold setschenow at hf | unfold drummond at hf | unfold rumpf at hf | unfold duanSun at hf
        cases hi : indexWithFormula species g with
        | throw => rw [hi] at hf; cases hf
        | ub => rw [hi] at hf; cases hf
        | ok i =>
          rw [hi] at hf
          simp only [Res.bind_ok', Res.ok.injEq] at hf
          rw [← hf] at hr
          simp only [(fits_iff' m species.length).mpr hm, hx] at hr
          rw [if_neg (by simp), he] at hr
          simp only [Res.ok.injEq] at hr
          rw [← hr]
          constructor <;> intro idx hidx <;> simp [overwrite, hidx]
  · cases hb <;>
    · first | unfold debyeHuckel at hf | unfold hkf at hf
      cases hmix : construct reactions rho0 eps0 species with
      | throw => rw [hmix] at hf; cases hf
      | ub => rw [hmix] at hf; cases hf
      | ok mix =>
        rw [hmix] at hf
        simp only [Res.bind_ok', Res.ok.injEq] at hf
        rw [← hf] at hr
        simp only at hr
        split at hr
        · cases hr
        · cases hst : mix.state T P x with
          | throw => rw [hst] at hr; cases hr
          | ub => rw [hst] at hr; cases hr
          | ok st =>
            rw [hst] at hr
            simp only [Res.bind_ok', Res.ok.injEq] at hr
            rw [← hr]
            exact ⟨fun _ h => h, fun _ h => h⟩
  · have : r.world = m.world := by
      cases hp with
      | idealSolution => cases hf; simp only at hr; split at hr; (· cases hr); (· cases hr; rfl)
      | idealGas => cases hf; simp only at hr; split at hr; (· cases hr); (· cases hr; rfl)
      | idealAqueous =>
        unfold idealAqueous at hf
        cases hi : indexWithFormula species waterFormula with
        | throw => rw [hi] at hf; cases hf
        | ub => rw [hi] at hf; cases hf
        | ok i =>
          rw [hi] at hf
          simp only [Res.bind_ok', Res.ok.injEq] at hf
          rw [← hf] at hr
          simp only at hr
          split at hr
          · cases hr
          · cases hr; rfl
      | redlichKister a0 a1 a2 =>
        unfold redlichKister at hf
        split at hf
        · cases hf
        · simp only [Res.ok.injEq] at hf
          rw [← hf] at hr
          simp only at hr
          split at hr
          · cases hr
          · cases hr; rfl
    rw [this]
    exact ⟨fun _ h => h, fun _ h => h⟩

/-- **C63.** The positions of the ions found by the first evaluation are used for the rest of the process. -/
theorem C63_history (w w' : World) (h : History w w') :
    (∀ idx, w.rumpf = some idx → w'.rumpf = some idx) ∧ (∀ idx, w.duan = some idx → w'.duan = some idx) := by
  induction h with
  | nil w => exact ⟨fun _ h => h, fun _ h => h⟩
  | cons he _ ih =>
    have := evaluation_keeps _ _ he
    exact ⟨fun idx h => ih.1 idx (this.1 idx h), fun idx h => ih.2 idx (this.2 idx h)⟩

theorem notfound (charged : List (Species ℝ)) (f : Formula) (h : ∀ s ∈ charged, f.equivalent s.formula = false) :
    findWithFormula charged f = charged.length := by
  unfold findWithFormula Chem.indexfn
  rw [List.findIdx_eq_length]
  exact fun s hs => h s hs

/-- **C63.** The activity coefficient depends on which phase was evaluated first in the process: if the first phase has none of the five
ions, then, whatever is evaluated in between, the ln activity coefficient of the gas in any phase with no more ions than the first is
zero, however saline it is. -/
theorem C63_wrong (gas gas' : Formula) (species species' : List (Species ℝ)) (f f' : Fn) (hf : rumpf gas species = .ok f)
    (hf' : rumpf gas' species' = .ok f') (m m' : Mem) (hm : Fits m species.length) (hm' : Fits m' species'.length)
    (mix mix' : Mixture ℝ) (st st' : State ℝ) (he : m.extra = some (mix, st)) (he' : m'.extra = some (mix', st'))
    (hfresh : m.world.rumpf = none) (hions : ∀ s ∈ mix.ix.charged, ∀ ion ∈ rumpfIons, ion.equivalent s.formula = false)
    (hfew : mix'.ix.charged.length ≤ mix.ix.charged.length) (T P T' P' : ℝ) (x x' : List ℝ) (hx : x.length = species.length)
    (hx' : x'.length = species'.length) (r : Mem) (hr : f T P x m = .ok r) (hh : History r.world m'.world) (i : Nat)
    (hi : indexWithFormula species' gas' = .ok i) : lnG (f' T' P' x' m') i = 0 := by
  have hil : i < species'.length := by
    unfold indexWithFormula at hi
    simp only at hi
    split at hi
    · cases hi
    · cases hi; omega
  have hset : r.world.rumpf = some (ionIndices mix rumpfIons) := by
    unfold rumpf at hf
    cases hj : indexWithFormula species gas with
    | throw => rw [hj] at hf; cases hf
    | ub => rw [hj] at hf; cases hf
    | ok j =>
      rw [hj] at hf
      simp only [Res.bind_ok', Res.ok.injEq] at hf
      rw [← hf] at hr
      simp only [(fits_iff' m species.length).mpr hm, hx] at hr
      rw [if_neg (by simp), he] at hr
      simp only [Res.ok.injEq] at hr
      rw [← hr]
      simp [overwrite, hfresh, rumpfIons]
  have hw := (C63_history _ _ hh).1 _ hset
  unfold rumpf at hf'
  rw [hi] at hf'
  simp only [Res.bind_ok', Res.ok.injEq] at hf'
  rw [← hf']
  simp only [(fits_iff' m' species'.length).mpr hm', hx']
  rw [if_neg (by simp), he']
  simp only [lnG, propsOf, overwrite, hw, Option.getD_some]
  rw [getD_set _ _ _ _ (by rw [hm'.1]; exact hil), if_pos rfl, rumpfValue_congr _ _ (fun _ => 0) (fun k hk => ?_)]
  · unfold rumpfValue
    simp
  · unfold ionMolality ionIndices
    have : (rumpfIons.map fun f => findWithFormula mix.ix.charged f).getD k 0 = mix.ix.charged.length := by
      have hk' : k < rumpfIons.length := hk
      rw [show (rumpfIons.map fun f => findWithFormula mix.ix.charged f).getD k 0 = findWithFormula mix.ix.charged rumpfIons[k] from by
        simp [hk']]
      exact notfound _ _ fun s hs => hions s hs _ (List.getElem_mem _)
    rw [this, if_neg (not_lt.mpr hfew)]

/-! ## A concrete case of C63 -/

def co2 : Formula := ⟨c!"CO2", [(c!"C", 1), (c!"O", 2)], 0⟩

/-- Water, two ions and dissolved carbon dioxide. -/
def carbonated (a b : Species ℝ) : List (Species ℝ) := [⟨c!"H2O(aq)", waterFormula, 0⟩, a, b, ⟨c!"CO2(aq)", co2, 0⟩]

theorem carbonated_mix (a b : Species ℝ) (ha : a.charge ≠ 0) (hb : b.charge ≠ 0) (rho0 eps0 : ℝ) :
    ∃ mix, construct [] rho0 eps0 (carbonated a b) = .ok mix ∧ mix.idxWater = 0 ∧ mix.ix.idxCharged = [1, 2] ∧ mix.ix.charged = [a, b] := by
  have hw : IsWater (carbonated a b)[(⟨0, by simp [carbonated]⟩ : Fin (carbonated a b).length)] := by
    show waterFormula.equivalent waterFormula = true
    decide +kernel
  obtain ⟨mix, hmix⟩ := construct_ok [] rho0 eps0 (carbonated a b) ⟨0, by simp [carbonated]⟩ hw
  have h0 := water_index [] rho0 eps0 (carbonated a b) mix hmix ⟨0, by simp [carbonated]⟩ hw
    (by intro i hi; exact absurd hi (by simp [Fin.lt_def]))
  obtain ⟨-, -, -, -, -, hC, -, -, -, hCs, -, -, -, hCsp, -⟩ := C49_partition [] rho0 eps0 (carbonated a b) mix hmix
  have hidx : mix.ix.idxCharged = [1, 2] := by
    apply List.Perm.eq_of_pairwise (le := fun a b : Nat => a < b) (fun a b _ _ h1 h2 => absurd h1 (not_lt.mpr h2.le)) hCs (by simp)
    rw [List.perm_ext_iff_of_nodup (hCs.imp fun h => Nat.ne_of_lt h) (by simp)]
    intro i
    rw [hC i, h0]
    constructor
    · rintro ⟨hi, s, hs, hz⟩
      rcases i with _ | _ | _ | _ | i
      · exact absurd rfl hi
      · simp
      · simp
      · simp [carbonated] at hs
        rw [← hs] at hz
        exact absurd rfl hz
      · simp [carbonated] at hs
    · intro hi
      simp only [List.mem_cons, List.not_mem_nil, or_false] at hi
      rcases hi with rfl | rfl
      · exact ⟨by simp, a, rfl, ha⟩
      · exact ⟨by simp, b, rfl, hb⟩
  refine ⟨mix, hmix, h0, hidx, ?_⟩
  rw [hidx] at hCsp
  have h : mix.ix.charged.map some = [a, b].map some := hCsp
  exact List.map_injective_iff.mpr (Option.some_injective _) h

theorem carbonated_state (a b : Species ℝ) (ha : a.charge ≠ 0) (hb : b.charge ≠ 0) (rho0 eps0 T P : ℝ) (x0 x1 x2 x3 : ℝ) (h0 : x0 ≠ 0) :
    ∃ mix st, construct [] rho0 eps0 (carbonated a b) = .ok mix ∧ mix.state T P [x0, x1, x2, x3] = .ok st ∧ mix.ix.charged = [a, b] ∧
      st.ms = [x1 / (waterMolarMass * x0), x2 / (waterMolarMass * x0)] ∧ st.T = T := by
  obtain ⟨mix, hmix, hw, hidx, hch⟩ := carbonated_mix a b ha hb rho0 eps0
  obtain ⟨st, h1, h2, -, h4, h5, -, -⟩ := state_eq [] rho0 eps0 (carbonated a b) mix hmix T P [x0, x1, x2, x3] rfl
  refine ⟨mix, st, hmix, h1, hch, ?_, ?_⟩
  · have hz : ∀ i j, (ionsIn [] (carbonated a b) i j : ℝ) = 0 := by
      intro i j
      unfold ionsIn
      split
      · rw [show ∀ f g, Registries.coefficient [] f g = 0 from fun _ _ => rfl, Rat.cast_zero]
      · exact Rat.cast_zero
    have hm : st.m = [x0, x1, x2, x3].map fun xi => xi / (waterMolarMass * x0) := by
      rw [h4, hw]
      exact if_neg h0
    rw [h5, hidx, hm]
    simp [hz]
  · unfold Mixture.state at h1
    rw [h2] at h1
    simp only [Res.bind_ok'] at h1
    cases hms : mix.stoichiometricMolalities st.m with
    | throw => rw [hms] at h1; cases h1
    | ub => rw [hms] at h1; cases h1
    | ok ms =>
      rw [hms] at h1
      simp only [Res.bind_ok'] at h1
      cases hI : mix.stoichiometricIonicStrength ms with
      | throw => rw [hI] at h1; cases h1
      | ub => rw [hI] at h1; cases h1
      | ok Is =>
        rw [hI] at h1
        simp only [Res.bind_ok', Res.ok.injEq] at h1
        rw [← h1]

def hPlus : Formula := ⟨c!"H+", [(c!"H", 1)], 1⟩
def ohMinus : Formula := ⟨c!"OH-", [(c!"O", 1), (c!"H", 1)], -1⟩

/-- Carbonated pure water and carbonated brine. -/
def pureWater : List (Species ℝ) := carbonated ⟨c!"H+", hPlus, 1⟩ ⟨c!"OH-", ohMinus, -1⟩
def saltyWater : List (Species ℝ) := carbonated ⟨c!"Na+", naPlus, 1⟩ ⟨c!"Cl-", clMinus, -1⟩

/-- Carbonated brine has a neutral solute, to which `C61_neutral` applies. -/
example (reactions : List Registries.Reaction) (rho0 eps0 : ℝ) : ∃ f mix, debyeHuckel reactions rho0 eps0 {} saltyWater = .ok f ∧
    construct reactions rho0 eps0 saltyWater = .ok mix ∧ (saltyWater[3]'(by decide)).charge = 0 ∧ (3 : Nat) ≠ mix.idxWater := by
  have hw : IsWater (saltyWater[0]'(by decide)) := by
    show waterFormula.equivalent waterFormula = true
    decide +kernel
  obtain ⟨mix, hmix⟩ := construct_ok reactions rho0 eps0 saltyWater ⟨0, by decide⟩ hw
  have hp := (C49_partition reactions rho0 eps0 saltyWater mix hmix).2.1
  refine ⟨_, mix, by unfold debyeHuckel; rw [hmix]; rfl, hmix, rfl, ?_⟩
  intro h
  exact hp 0 _ (by rw [← h]; norm_num) rfl hw

/-- New properties in a process in a given state. -/
def newMem (w : World) : Mem := ⟨⟨0, 0, 0, 0, 0, 0, 0, [0, 0, 0, 0], [0, 0, 0, 0]⟩, none, w⟩

theorem co2_index (a b : Species ℝ) (ha : co2.equivalent a.formula = false) (hb : co2.equivalent b.formula = false) :
    indexWithFormula (carbonated a b) co2 = .ok 3 := by
  have h1 : co2.equivalent waterFormula = false := by decide +kernel
  have h2 : co2.equivalent co2 = true := by decide +kernel
  unfold indexWithFormula findWithFormula Chem.indexfn carbonated
  simp [List.findIdx_cons, h1, h2, ha, hb]

/-- The model of Rumpf et al. after a base model. -/
theorem rumpf_chain (rho0 eps0 : ℝ) (base : Model) (hb : Base [] rho0 eps0 base) (a b : Species ℝ)
    (ha : a.charge ≠ 0) (hbz : b.charge ≠ 0) (hca : co2.equivalent a.formula = false) (hcb : co2.equivalent b.formula = false) (T P : ℝ)
    (x0 x1 x2 x3 : ℝ) (h0 : x0 ≠ 0) (w : World) :
    ∃ f fr mix st r0, chain [base, rumpf co2] (carbonated a b) = .ok f ∧ rumpf co2 (carbonated a b) = .ok fr ∧
      r0.extra = some (mix, st) ∧ r0.world = w ∧ Fits r0 4 ∧ f T P [x0, x1, x2, x3] (newMem w) = fr T P [x0, x1, x2, x3] r0 ∧
      mix.ix.charged = [a, b] ∧ st.ms = [x1 / (waterMolarMass * x0), x2 / (waterMolarMass * x0)] ∧ st.T = T := by
  obtain ⟨mix, st, hmix, hst, hch, hms, hT⟩ := carbonated_state a b ha hbz rho0 eps0 T P x0 x1 x2 x3 h0
  have hbase : ∃ fb, base (carbonated a b) = .ok fb := by
    cases hb with
    | debyeHuckel p => unfold debyeHuckel; rw [hmix]; exact ⟨_, rfl⟩
    | hkf p => unfold hkf; rw [hmix]; exact ⟨_, rfl⟩
  obtain ⟨fb, hfb⟩ := hbase
  have hrumpf : ∃ fr, rumpf co2 (carbonated a b) = .ok fr := by
    unfold rumpf
    rw [co2_index a b hca hcb]
    exact ⟨_, rfl⟩
  obtain ⟨fr, hfr⟩ := hrumpf
  obtain ⟨g1, hg1, e1⟩ := C62_chain_single base _ fb hfb
  obtain ⟨g2, hg2, e2⟩ := C62_chain_single (rumpf co2) _ fr hfr
  obtain ⟨f, hf, e⟩ := C62_chain [base] [rumpf co2] _ g1 g2 hg1 hg2
  obtain ⟨mix', st', r0, hmix', hst', hr0, he, hw, hfit⟩ := base_eval [] rho0 eps0 base hb _ fb hfb T P [x0, x1, x2, x3] (newMem w)
    ⟨rfl, rfl⟩ rfl
  rw [hmix] at hmix'
  cases hmix'
  rw [hst] at hst'
  cases hst'
  refine ⟨f, fr, mix, st, r0, hf, hfr, he, hw, hfit, ?_, hch, hms, hT⟩
  rw [e, e1, hr0]
  exact e2 T P _ r0

/-- **C63.** The same evaluation gives two different values in the same process: carbon dioxide in brine has a non-zero ln activity
coefficient in a new process, and zero once the model was evaluated for pure water. -/
theorem C63_inconsistent (rho0 eps0 : ℝ) (base : Model) (hb : Base [] rho0 eps0 base) :
    ∃ f g r, chain [base, rumpf co2] pureWater = .ok f ∧ chain [base, rumpf co2] saltyWater = .ok g ∧
      f 300 100000 [1, 1 / 1000, 1 / 1000, 1 / 1000] (newMem {}) = .ok r ∧
      lnG (g 300 100000 [1, waterMolarMass, waterMolarMass, waterMolarMass] (newMem {})) 3 ≠ 0 ∧
      lnG (g 300 100000 [1, waterMolarMass, waterMolarMass, waterMolarMass] (newMem r.world)) 3 = 0 := by
  have hM : (0 : ℝ) < waterMolarMass := by unfold waterMolarMass; norm_num
  obtain ⟨f, fr, mix, st, r0, hf, hfr, he, hw, hfit, heq, hch, hms, hT⟩ := rumpf_chain rho0 eps0 base hb
    ⟨c!"H+", hPlus, 1⟩ ⟨c!"OH-", ohMinus, -1⟩ (by norm_num) (by norm_num) (by decide +kernel) (by decide +kernel) 300 100000
    1 (1 / 1000) (1 / 1000) (1 / 1000) one_ne_zero {}
  obtain ⟨g, gr, mix1, st1, r1, hg, hgr, he1, hw1, hfit1, heq1, hch1, hms1, hT1⟩ := rumpf_chain rho0 eps0 base hb
    ⟨c!"Na+", naPlus, 1⟩ ⟨c!"Cl-", clMinus, -1⟩ (by norm_num) (by norm_num) (by decide +kernel) (by decide +kernel) 300 100000
    1 waterMolarMass waterMolarMass waterMolarMass one_ne_zero {}
  obtain ⟨i, hi, hev⟩ := corrector_eval (rumpf co2) co2 (.rumpf co2) _ fr hfr
  obtain ⟨v, world, hv⟩ := (hev 300 100000 [1, 1 / 1000, 1 / 1000, 1 / 1000] r0 hfit rfl).2 mix st he
  set r := overwrite { r0 with world := world } st i v with hr
  obtain ⟨g', gr', mix2, st2, r2, hg', hgr', he2, hw2, hfit2, heq2, hch2, hms2, hT2⟩ := rumpf_chain rho0 eps0 base hb
    ⟨c!"Na+", naPlus, 1⟩ ⟨c!"Cl-", clMinus, -1⟩ (by norm_num) (by norm_num) (by decide +kernel) (by decide +kernel) 300 100000
    1 waterMolarMass waterMolarMass waterMolarMass one_ne_zero r.world
  rw [hg] at hg'
  cases hg'
  rw [hgr] at hgr'
  cases hgr'
  have hidx := co2_index ⟨c!"Na+", naPlus, 1⟩ ⟨c!"Cl-", clMinus, -1⟩ (by decide +kernel) (by decide +kernel)
  refine ⟨f, g, r, hf, hg, by rw [heq, hv], ?_, ?_⟩
  · rw [heq1, (C63_first_partial co2 saltyWater r1 hfit1 mix1 st1 he1 (by rw [hms1, hch1]; rfl) 300 100000 _ rfl 3 hidx).1
      (.inl (by rw [hw1])) gr hgr]
    have e1 : naPlus.equivalent naPlus = true := by decide +kernel
    have e2 : ∀ q ∈ [kPlus, caPlus, mgPlus], q.equivalent naPlus = false ∧ q.equivalent clMinus = false := by decide +kernel
    have e3 : clMinus.equivalent naPlus = false := by decide +kernel
    have e4 : clMinus.equivalent clMinus = true := by decide +kernel
    have hk := e2 kPlus (by simp)
    have hca := e2 caPlus (by simp)
    have hmg := e2 mgPlus (by simp)
    have hvals : rumpfValue st1.T (fun k => ionOf mix1.ix.charged st1.ms (rumpfIons.getD k naPlus)) =
        rumpfValue 300 (fun k => if k = 0 ∨ k = 4 then 1 else 0) := by
      rw [hT1]
      apply rumpfValue_congr
      intro k hk5
      rw [hch1, hms1, mul_one, div_self hM.ne']
      unfold ionOf rumpfIons
      interval_cases k
      · simp [e1]
      · simp [hk]
      · simp [hca]
      · simp [hmg]
      · simp [e3, e4]
    rw [hvals]
    unfold rumpfValue
    norm_num
  · rw [heq2]
    exact C63_wrong co2 co2 pureWater saltyWater fr gr hfr hgr r0 r2 hfit hfit2 mix mix2 st st2 he he2 (by rw [hw])
      (by
        have : ∀ ion ∈ rumpfIons, ion.equivalent hPlus = false ∧ ion.equivalent ohMinus = false := by decide +kernel
        intro s hs ion hion
        rw [hch] at hs
        simp only [List.mem_cons, List.not_mem_nil, or_false] at hs
        rcases hs with rfl | rfl
        · exact (this ion hion).1
        · exact (this ion hion).2)
      (by rw [hch, hch2]; rfl) 300 100000 300 100000 _ _ rfl rfl r hv (by rw [hw2]; exact .nil _) 3 hidx

end Verif.Activity
