import Mathlib.Analysis.Complex.ExponentialBounds
import Verif.Spec.Imposed
import Verif.Theorems.EquilibriumSetup
import Verif.Theorems.EquilibriumSpecs
import Verif.Theorems.IdealEquilibrium

/-!
# C108: imposed pH, activities, fugacities and potentials are those of the equilibrium state
-/

namespace Verif.Imposed

open ChemicalProps ChemicalSystem EquilibriumSpecs EquilibriumSetup IdealEquilibrium
open ArraySerialization (Props)

theorem mapM_get {α β : Type} {f : α → Res β} {l : List α} {r : List β} (h : l.mapM (m := Res) f = .ok r) :
    r.length = l.length ∧ ∀ i (hi : i < l.length) (hr : i < r.length), f l[i] = .ok r[i] := by
  induction l generalizing r with
  | nil =>
    rw [List.mapM_nil] at h
    injection h with h
    subst h
    exact ⟨rfl, fun i hi => absurd hi (by simp)⟩
  | cons a l ih =>
    rw [List.mapM_cons] at h
    obtain ⟨b, hb, h⟩ := Res.bind_eq_ok.1 h
    obtain ⟨bs, hbs, h⟩ := Res.bind_eq_ok.1 h
    injection h with h
    subst h
    obtain ⟨h1, h2⟩ := ih hbs
    refine ⟨by simp [h1], fun i hi hr => ?_⟩
    cases i with
    | zero => exact hb
    | succ i => exact h2 i (by simpa using hi) (by simpa using hr)

/-! ## A reaction of one species and one titrant -/

/-- The list of length `N` with `a` at position `j` and zero elsewhere. -/
def unit (N j : Nat) (a : Rat) : List Rat := (List.replicate N 0).set j a

theorem unit_length (N j : Nat) (a : Rat) : (unit N j a).length = N := by simp [unit]

theorem unit_getD (N j i : Nat) (a : Rat) (hj : j < N) : (unit N j a).getD i 0 = if i = j then a else 0 := by
  unfold unit
  rw [List.getD_eq_getElem?_getD, List.getElem?_set]
  by_cases h : j = i
  · subst h; simp [hj]
  · rw [if_neg h, if_neg (Ne.symm h), List.getElem?_replicate]
    split <;> rfl

theorem zip_zero {α : Type} (g : α → Rat) (l : List α) (N : Nat) : ((l.zip (List.replicate N 0)).map fun p => g p.1 * p.2).sum = 0 := by
  induction l generalizing N with
  | nil => simp
  | cons x l ih =>
    cases N with
    | zero => simp
    | succ N => simp [List.replicate_succ, ih]

theorem zip_unit {α : Type} (g : α → Rat) (a : Rat) (l : List α) (j : Nat) (x : α) (h : l[j]? = some x) :
    ((l.zip (unit l.length j a)).map fun p => g p.1 * p.2).sum = g x * a := by
  induction l generalizing j with
  | nil => simp at h
  | cons y l ih =>
    cases j with
    | zero =>
      simp only [List.getElem?_cons_zero, Option.some.injEq] at h
      subst h
      simp [unit, List.replicate_succ, zip_zero]
    | succ j =>
      simp only [List.getElem?_cons_succ] at h
      have := ih j h
      simp only [unit, List.length_cons, List.replicate_succ, List.set_cons_succ, List.zip_cons_cons, List.map_cons, List.sum_cons, mul_zero,
        zero_add] at this ⊢
      exact this

/-- What the constraints of a specification make of the inputs, one for each titrant. -/
theorem potential_at {parse : Str → Option Formula} {db : List EquilibriumSpecs.Species} {calls : List (Call ℝ (Props ℝ))} {sys : System}
    {env : Env ℝ (Props ℝ)} {w : List ℝ} {pr : Problem} {n q : List ℝ} {props : Props ℝ}
    (h : Calculated parse db calls sys env w pr n q props) :
    pr.uq.length = (run parse db calls).titrantsImplicit.length ∧
    ∀ c ∈ (run parse db calls).uconstraints, ∃ k fn, (run parse db calls).titrantsImplicit[k]? = some c.substance ∧
      (run parse db calls).uconstraints[k]? = some c ∧ c.fn = some fn ∧
      PotentialU env props (run parse db calls).inputs w c.name (pr.uq.getD k 0) fn := by
  have hc : Consistent (run parse db calls) := C35_invariant parse db calls
  have hp := h.potentials
  have hw := h.inputs
  generalize run parse db calls = s at hc hp hw
  unfold evalPotentials at hp
  obtain ⟨h1, h2⟩ := mapM_get hp
  rw [List.length_range] at h1
  refine ⟨h1, ?_⟩
  intro c hcm
  obtain ⟨k, hk, rfl⟩ := List.getElem_of_mem hcm
  have hlen : s.titrantsImplicit.length = s.uconstraints.length := by rw [← hc.potentials, List.length_map]
  obtain ⟨fn, hfn, hwired⟩ := hc.ufunctions _ hcm
  refine ⟨k, fn, ?_, List.getElem?_eq_getElem hk, hfn, ?_⟩
  · rw [← hc.potentials, List.getElem?_map, List.getElem?_eq_getElem hk]
    rfl
  · have e := h2 k (by rw [List.length_range, hlen]; exact hk) (by rw [h1, hlen]; exact hk)
    rw [List.getElem_range] at e
    unfold evalUAt at e
    rw [at!_of_lt _ _ hk, Res.bind_ok'] at e
    simp only [hfn] at e
    rw [List.getD_eq_getElem _ _ (by rw [h1, hlen]; exact hk)]
    rcases evalU_wired env props s.inputs hc.inputs w hw _ _ fn hwired with ⟨r, h3, h4⟩ | ⟨sp, c, i, -, -, h5⟩ | ⟨f, rfl⟩
    · rw [h3] at e; cases e; exact h4
    · rw [h5] at e; cases e
    · exact e

/-- The conditions of equilibrium are stationarity for the unknowns that are not at their bounds. -/
theorem stationary {pr : Problem} {n q : List ℝ} {props : Props ℝ} (he : Equilibrium pr n q props)
    (free : ∀ k, count pr.phases ≤ k → pr.lower[k]?.join = none ∧ pr.upper[k]?.join = none) :
    Stationary pr.A (gradX pr.R pr.T pr.eps pr.factor n props.u pr.uq)
      (fun j => j < n.length + q.length ∧ (j < n.length → Inside pr n j)) := by
  obtain ⟨hf, -, y, hy⟩ := he
  refine ⟨y, ?_⟩
  rintro j ⟨hj, hin⟩
  have := hy j hj
  dsimp only at this
  have hz : (pr.gradient n props.u).getD j 0 - ∑ i ∈ Finset.range pr.A.length, y i * (((pr.A.getD i []).getD j 0 : Rat) : ℝ) = 0 := by
    by_cases hjn : j < n.length
    · have hi := hin hjn
      rcases lt_trichotomy ((pr.gradient n props.u).getD j 0 -
        ∑ i ∈ Finset.range pr.A.length, y i * (((pr.A.getD i []).getD j 0 : Rat) : ℝ)) 0 with h0 | h0 | h0
      · obtain ⟨v, h1, h2⟩ := this.2 h0
        rw [List.getD_append _ _ _ _ hjn] at h2
        exact absurd h2 ((hi v).2 h1)
      · exact h0
      · obtain ⟨v, h1, h2⟩ := this.1 h0
        rw [List.getD_append _ _ _ _ hjn] at h2
        exact absurd h2 ((hi v).1 h1)
    · obtain ⟨f1, f2⟩ := free j (by rw [← hf.species]; omega)
      rcases lt_trichotomy ((pr.gradient n props.u).getD j 0 -
        ∑ i ∈ Finset.range pr.A.length, y i * (((pr.A.getD i []).getD j 0 : Rat) : ℝ)) 0 with h0 | h0 | h0
      · obtain ⟨v, h1, -⟩ := this.2 h0
        rw [h1] at f2; simp at f2
      · exact h0
      · obtain ⟨v, h1, -⟩ := this.1 h0
        rw [h1] at f1; simp at f1
  exact sub_eq_zero.1 hz

theorem u_length {pr : Problem} {n q : List ℝ} {props : Props ℝ} (hr : Proper pr) (he : Equilibrium pr n q props) :
    props.u.length = count pr.phases ∧ props.G0.length = count pr.phases ∧ props.ln_a.length = count pr.phases := by
  have hs := props_shape pr hr n props he.2.1
  exact ⟨hs.perSpecies _ (by simp), hs.perSpecies _ (by simp), hs.perSpecies _ (by simp)⟩

theorem zipWith_flatMap {α : Type} (g : ℝ → ℝ → ℝ) (a b : α → List ℝ) (l : List α) (h : ∀ i ∈ l, (a i).length = (b i).length) :
    l.flatMap (fun i => List.zipWith g (a i) (b i)) = List.zipWith g (l.flatMap a) (l.flatMap b) := by
  induction l with
  | nil => rfl
  | cons i l ih =>
    rw [List.flatMap_cons, List.flatMap_cons, List.flatMap_cons, List.zipWith_append (h i (by simp)), ih fun k hk => h k (by simp [hk])]

/-- Chemical potentials from standard Gibbs energies and activities. -/
theorem potential_of_activity {pr : Problem} {n : List ℝ} {props : Props ℝ} (hr : Proper pr) (h : Has pr n props) :
    props.T = pr.T ∧ props.P = pr.P ∧
    ∀ j < count pr.phases, props.u.getD j 0 = props.G0.getD j 0 + pr.R * pr.T * props.ln_a.getD j 0 := by
  have hs := props_shape pr hr n props h
  obtain ⟨old, ho, hu⟩ := h
  obtain ⟨-, hT, hP, hc⟩ := C32_update pr.R pr.phases hr.sizes hr.nonempty false old ho pr.T pr.P n props hu
  refine ⟨hT, hP, ?_⟩
  obtain ⟨-, -, -, e3, -, -, -, -, -, e9, e10⟩ := C32_blocks pr.phases props hs
  have e : props.u = List.zipWith (fun g a => g + pr.R * pr.T * a) props.G0 props.ln_a := by
    rw [e10, e3, e9, ← zipWith_flatMap]
    · apply List.flatMap_congr
      intro i hi
      exact (hc i (List.mem_range.1 hi)).potential
    · intro i hi
      have l1 := view_sized pr.phases props hs i (List.mem_range.1 hi)
      rw [l1.G0, l1.ln_a]
  intro j hj
  have l1 : props.G0.length = count pr.phases := hs.perSpecies _ (by simp)
  have l2 : props.ln_a.length = count pr.phases := hs.perSpecies _ (by simp)
  have l3 : props.u.length = count pr.phases := hs.perSpecies _ (by simp)
  rw [List.getD_eq_getElem _ _ (by omega), List.getD_eq_getElem _ _ (by omega), List.getD_eq_getElem _ _ (by omega)]
  simp only [e, List.getElem_zipWith]

/-- The chemical potential of a species that is the titrant of a constraint. -/
theorem imposed_core {parse : Str → Option Formula} {db : List EquilibriumSpecs.Species} {calls : List (Call ℝ (Props ℝ))} {sys : System}
    {env : Env ℝ (Props ℝ)} {w : List ℝ} {pr : Problem} {n q : List ℝ} {props : Props ℝ}
    (h : Calculated parse db calls sys env w pr n q props) (k : Nat) (f : Formula)
    (hk : (run parse db calls).titrantsImplicit[k]? = some f) (j : Nat) (hj : SameAs sys j f) (hin : Inside pr n j) :
    props.u.getD j 0 = pr.uq.getD k 0 + pr.R * pr.T * (pr.eps * pr.factor / n.getD j 0) := by
  obtain ⟨phases, hphases⟩ := h.system
  obtain ⟨huq, -⟩ := potential_at h
  obtain ⟨l1, -, -⟩ := u_length h.proper h.equilibrium
  obtain ⟨x, hx, hel, hch⟩ := hj
  have hjl : j < sys.species.length := (List.getElem?_eq_some_iff.1 hx).1
  have hkl : k < (run parse db calls).titrantsImplicit.length := (List.getElem?_eq_some_iff.1 hk).1
  have hnl : n.length = sys.species.length := by rw [h.species]; exact h.equilibrium.1.species
  have hql : q.length = (run parse db calls).titrantsImplicit.length := by rw [h.equilibrium.1.titrants, huq]
  have key := C55_mass_action phases sys hphases (run parse db calls) h.symbols h.formulas pr.A h.matrix pr.R pr.T pr.eps pr.factor h.nonzero n
    props.u pr.uq hnl (by rw [l1, h.species]) huq _ (stationary h.equilibrium h.free) (unit sys.species.length j 1)
    (unit (run parse db calls).titrantsImplicit.length k (-1)) (unit_length _ _ _) (unit_length _ _ _)
    (by
      intro i hi
      by_cases hi1 : i < sys.species.length
      · rw [List.getD_append _ _ _ _ (by rw [unit_length]; exact hi1), unit_getD _ _ _ _ hjl] at hi
        by_cases hij : i = j
        · subst hij; exact ⟨by omega, fun _ => hin⟩
        · rw [if_neg hij] at hi; exact absurd rfl hi
      · rw [List.getD_append_right _ _ _ _ (by rw [unit_length]; omega), unit_length, unit_getD _ _ _ _ hkl] at hi
        by_cases hij : i - sys.species.length = k
        · exact ⟨by omega, fun h' => by omega⟩
        · rw [if_neg hij] at hi; exact absurd rfl hi)
    (by
      intro e he
      unfold ChemicalSystem.total titrants
      rw [zip_unit (fun x : Chem.Species => elementContent x e.symbol) _ _ _ _ hx,
        zip_unit (fun f : Formula => formulaContent f e.symbol) _ _ _ _ hk, hel e he]
      ring)
    (by
      unfold ChemicalSystem.total titrants
      rw [zip_unit (fun x : Chem.Species => x.charge) _ _ _ _ hx, zip_unit (fun f : Formula => f.charge) _ _ _ _ hk, hch]
      ring)
  have s1 : ∀ g : Nat → ℝ, ∑ i ∈ Finset.range sys.species.length, (((unit sys.species.length j 1).getD i 0 : Rat) : ℝ) * g i = g j := by
    intro g
    rw [Finset.sum_eq_single j]
    · rw [unit_getD _ _ _ _ hjl, if_pos rfl]; simp
    · intro i _ hij
      rw [unit_getD _ _ _ _ hjl, if_neg hij]; simp
    · intro h0; exact absurd (Finset.mem_range.2 hjl) h0
  have s2 : ∑ i ∈ Finset.range (run parse db calls).titrantsImplicit.length,
      (((unit (run parse db calls).titrantsImplicit.length k (-1)).getD i 0 : Rat) : ℝ) * pr.uq.getD i 0 = - pr.uq.getD k 0 := by
    rw [Finset.sum_eq_single k]
    · rw [unit_getD _ _ _ _ hkl, if_pos rfl]; simp
    · intro i _ hij
      rw [unit_getD _ _ _ _ hkl, if_neg hij]; simp
    · intro h0; exact absurd (Finset.mem_range.2 hkl) h0
  have s3 : ∑ i ∈ Finset.range sys.species.length, (((unit sys.species.length j 1).getD i 0 : Rat) : ℝ) / n.getD i 0 = 1 / n.getD j 0 := by
    rw [← s1 fun i => 1 / n.getD i 0]
    apply Finset.sum_congr rfl
    intro i _
    ring
  rw [s1 fun i => props.u.getD i 0, s2, s3] at key
  have e : pr.R * pr.T * (pr.eps * pr.factor / n.getD j 0) = pr.R * pr.T * (pr.eps * pr.factor) * (1 / n.getD j 0) := by ring
  rw [e]
  linarith

/-! ## Constraints stay in the specification -/

theorem uconstraints_grow (parse : Str → Option Formula) (s : Specs ℝ (Props ℝ)) (c : Call ℝ (Props ℝ)) :
    (∃ l, (step parse s c).1.uconstraints = s.uconstraints ++ l) ∧ (step parse s c).1.database = s.database := by
  have hin : ∀ (s : Specs ℝ (Props ℝ)) v, (addInput s v).1.uconstraints = s.uconstraints ∧ (addInput s v).1.database = s.database := by
    intro s v
    rcases addInput_eq s v with ⟨-, e⟩ | ⟨-, e⟩ <;> rw [e] <;> exact ⟨rfl, rfl⟩
  have hE : ∀ (s : Specs ℝ (Props ℝ)) c, (addEConstraint s c).1.uconstraints = s.uconstraints ∧
      (addEConstraint s c).1.database = s.database := by
    intro s c
    rcases addE_eq s c with e | ⟨-, -, -, e⟩ <;> rw [e] <;> exact ⟨rfl, rfl⟩
  have hU : ∀ (s : Specs ℝ (Props ℝ)) c, (∃ l, (addUConstraint s c).1.uconstraints = s.uconstraints ++ l) ∧
      (addUConstraint s c).1.database = s.database := by
    intro s c
    rcases addU_eq s c with e | ⟨-, -, -, -, -, e⟩ <;> rw [e]
    · exact ⟨⟨[], by simp⟩, rfl⟩
    · exact ⟨⟨[c], rfl⟩, rfl⟩
  have hP : ∀ (s : Specs ℝ (Props ℝ)) name input fn, (∃ l, (constrainProperty s name input fn).1.uconstraints = s.uconstraints ++ l) ∧
      (constrainProperty s name input fn).1.database = s.database := by
    intro s name input fn
    unfold constrainProperty
    rcases addInput_eq s input with ⟨-, e⟩ | ⟨-, e⟩ <;> rw [e]
    · exact ⟨⟨[], by simp⟩, rfl⟩
    · dsimp only
      rw [(hE _ _).1, (hE _ _).2]
      exact ⟨⟨[], by simp⟩, rfl⟩
  have hQ : ∀ (s : Specs ℝ (Props ℝ)) name f fn, (∃ l, (constrainPotential s name f fn).1.uconstraints = s.uconstraints ++ l) ∧
      (constrainPotential s name f fn).1.database = s.database := by
    intro s name f fn
    unfold constrainPotential
    rcases addInput_eq s name with ⟨-, e⟩ | ⟨-, e⟩ <;> rw [e]
    · exact ⟨⟨[], by simp⟩, rfl⟩
    · exact hU _ _
  have hself : (∃ l, s.uconstraints = s.uconstraints ++ l) ∧ s.database = s.database := ⟨⟨[], by simp⟩, rfl⟩
  cases c with
  | temperature => exact ⟨⟨[], by simp only [step, temperature]; rw [(hin _ _).1]; simp⟩, by simp only [step, temperature]; rw [(hin _ _).2]⟩
  | pressure => exact ⟨⟨[], by simp only [step, pressure]; rw [(hin _ _).1]; simp⟩, by simp only [step, pressure]; rw [(hin _ _).2]⟩
  | volume => exact hP ..
  | internalEnergy => exact hP ..
  | enthalpy => exact hP ..
  | gibbsEnergy => exact hP ..
  | helmholtzEnergy => exact hP ..
  | entropy => exact hP ..
  | chemicalPotential x => simp only [step, chemicalPotential]; split; exact hself; exact hQ ..
  | lnActivitySpecies x => exact hQ ..
  | lnActivity x => simp only [step, lnActivity]; split; exact hself; exact hQ ..
  | fugacity x =>
    simp only [step, fugacity]; split; exact hself
    split; exact hself
    split; exact hself; exact hQ ..
  | pH =>
    simp only [step, minusLgActivity]; split; exact hself
    split; exact hself
    split; exact hself; exact hQ ..
  | pMg =>
    simp only [step, minusLgActivity]; split; exact hself
    split; exact hself
    split; exact hself; exact hQ ..
  | pE => simp only [step, pE]; split; exact hself; exact hQ ..
  | Eh => simp only [step, Eh]; split; exact hself; exact hQ ..
  | openTo f => rcases openTo_eq s f with e | ⟨-, -, e⟩ <;> simp only [step] <;> rw [e] <;> exact hself
  | addEConstraint name fn => exact ⟨⟨[], by simp only [step]; rw [(hE _ _).1]; simp⟩, by simp only [step]; rw [(hE _ _).2]⟩
  | addUConstraint name f fn => exact hU ..
  | addInput v => exact ⟨⟨[], by simp only [step]; rw [(hin _ _).1]; simp⟩, by simp only [step]; rw [(hin _ _).2]⟩
  | addInputParam p =>
    simp only [step, addInputParam]
    rcases addInput_eq s p.id with ⟨-, e⟩ | ⟨-, e⟩ <;> rw [e] <;> exact hself

theorem fold_grows (parse : Str → Option Formula) (calls : List (Call ℝ (Props ℝ))) (s : Specs ℝ (Props ℝ)) :
    (∀ c ∈ s.uconstraints, c ∈ (calls.foldl (fun s c => (step parse s c).1) s).uconstraints) ∧
    (calls.foldl (fun s c => (step parse s c).1) s).database = s.database := by
  induction calls generalizing s with
  | nil => exact ⟨fun c h => h, rfl⟩
  | cons call calls ih =>
    obtain ⟨⟨l, h1⟩, h2⟩ := uconstraints_grow parse s call
    obtain ⟨h3, h4⟩ := ih (step parse s call).1
    refine ⟨fun c hc => h3 c ?_, h4.trans h2⟩
    rw [h1]
    exact List.mem_append_left _ hc

/-- A call that constrains a potential and returns has added its constraint. -/
theorem potential_added (s : Specs ℝ (Props ℝ)) (name : Str) (f : Formula) (fn : Nat → UFn ℝ (Props ℝ))
    (h : (constrainPotential s name f fn).2 = true) :
    ⟨name, f, some (fn s.inputs.length)⟩ ∈ (constrainPotential s name f fn).1.uconstraints := by
  unfold constrainPotential at h ⊢
  rcases addInput_eq s name with ⟨-, e⟩ | ⟨-, e⟩
  · rw [e] at h; exact absurd h (by simp)
  · rw [e] at h ⊢
    dsimp only at h ⊢
    rcases addU_eq { s with inputs := s.inputs ++ [name] } ⟨name, f, some (fn s.inputs.length)⟩ with e' | ⟨-, -, -, -, -, e'⟩
    · rw [e'] at h; exact absurd h (by simp)
    · rw [e']; simp

/-- Calls that ask for an activity, return, and have an effect until the end. -/
theorem activity_constraint (parse : Str → Option Formula) (db : List EquilibriumSpecs.Species) (before after : List (Call ℝ (Props ℝ)))
    (call : Call ℝ (Props ℝ)) (hcall : IsActivity call) (hok : (step parse (run parse db before) call).2 = true) :
    ∃ name sp conv idx, (∀ env : Env ℝ (Props ℝ), env.log = Real.log → env.ln10 = Real.log 10 →
        ∃ f, Asks parse db call name sp f ∧ convert env conv = f) ∧
      (⟨name, sp.formula, some (.activity sp conv idx)⟩ : UConstraint ℝ (Props ℝ)) ∈ (run parse db (before ++ call :: after)).uconstraints := by
  have hdb : (run parse db before).database = db := (fold_grows parse before { database := db }).2
  have hstep : ∀ c, c ∈ (step parse (run parse db before) call).1.uconstraints → c ∈ (run parse db (before ++ call :: after)).uconstraints := by
    intro c hc
    have : run parse db (before ++ call :: after) =
        after.foldl (fun s c => (step parse s c).1) (step parse (run parse db before) call).1 := by
      unfold run; rw [List.foldl_append, List.foldl_cons]
    rw [this]
    exact (fold_grows parse after _).1 c hc
  have hsp : ∀ (g : Formula) (state : State) (sp : EquilibriumSpecs.Species), getSpecies (run parse db before).database g state = some sp →
      sp ∈ db ∧ sp.state = state ∧ g.equivalent sp.formula = true := by
    intro g state sp h
    rw [hdb] at h
    unfold getSpecies at h
    have h1 := List.mem_of_find?_eq_some h
    have h2 := List.find?_some h
    rw [List.mem_filter] at h1
    exact ⟨h1.1, by simpa using h1.2, h2⟩
  cases call with
  | pH =>
    simp only [step, minusLgActivity] at hok hstep
    cases hp : parse c!"H+" with
    | none => rw [hp] at hok; exact absurd hok (by simp)
    | some g =>
      rw [hp] at hok hstep
      dsimp only at hok hstep
      cases hg : getSpecies (run parse db before).database g .Aqueous with
      | none => rw [hg] at hok; exact absurd hok (by simp)
      | some sp =>
        rw [hg] at hok hstep
        dsimp only at hok hstep
        by_cases hn : sp.name.isEmpty = true
        · rw [if_pos hn] at hok; exact absurd hok (by simp)
        · rw [if_neg hn] at hok hstep
          obtain ⟨m1, m2, m3⟩ := hsp g _ sp hg
          refine ⟨_, sp, .minusLg, _, ?_, hstep _ (potential_added _ _ _ _ hok)⟩
          intro env _ h10
          refine ⟨_, .pH g sp hp m1 m2 m3, ?_⟩
          funext v; simp only [convert, h10]; ring
  | pMg =>
    simp only [step, minusLgActivity] at hok hstep
    cases hp : parse c!"Mg+2" with
    | none => rw [hp] at hok; exact absurd hok (by simp)
    | some g =>
      rw [hp] at hok hstep
      dsimp only at hok hstep
      cases hg : getSpecies (run parse db before).database g .Aqueous with
      | none => rw [hg] at hok; exact absurd hok (by simp)
      | some sp =>
        rw [hg] at hok hstep
        dsimp only at hok hstep
        by_cases hn : sp.name.isEmpty = true
        · rw [if_pos hn] at hok; exact absurd hok (by simp)
        · rw [if_neg hn] at hok hstep
          obtain ⟨m1, m2, m3⟩ := hsp g _ sp hg
          refine ⟨_, sp, .minusLg, _, ?_, hstep _ (potential_added _ _ _ _ hok)⟩
          intro env _ h10
          refine ⟨_, .pMg g sp hp m1 m2 m3, ?_⟩
          funext v; simp only [convert, h10]; ring
  | fugacity gas =>
    simp only [step, fugacity] at hok hstep
    cases hp : parse gas with
    | none => rw [hp] at hok; exact absurd hok (by simp)
    | some g =>
      rw [hp] at hok hstep
      dsimp only at hok hstep
      cases hg : getSpecies (run parse db before).database g .Gas with
      | none => rw [hg] at hok; exact absurd hok (by simp)
      | some sp =>
        rw [hg] at hok hstep
        dsimp only at hok hstep
        by_cases hn : sp.name.isEmpty = true
        · rw [if_pos hn] at hok; exact absurd hok (by simp)
        · rw [if_neg hn] at hok hstep
          obtain ⟨m1, m2, m3⟩ := hsp g _ sp hg
          refine ⟨_, sp, .fugacity, _, ?_, hstep _ (potential_added _ _ _ _ hok)⟩
          intro env hlog _
          refine ⟨_, .fugacity gas g sp hp m1 m2 m3, ?_⟩
          funext v; simp only [convert, hlog]
  | lnActivity name =>
    simp only [step, lnActivity] at hok hstep
    cases hg : (run parse db before).database.find? (fun x => x.name == name) with
    | none => rw [hg] at hok; exact absurd hok (by simp)
    | some sp =>
      rw [hg] at hok hstep
      dsimp only at hok hstep
      have h1 := List.mem_of_find?_eq_some hg
      have h2 := List.find?_some hg
      rw [hdb] at h1
      have h2 : sp.name = name := by simpa using h2
      subst h2
      refine ⟨_, sp, .lnActivity, _, ?_, hstep _ (potential_added _ _ _ _ hok)⟩
      intro env _ _
      exact ⟨_, .lnActivity _ sp h1 rfl, rfl⟩
  | lnActivitySpecies sp =>
    refine ⟨_, sp, .lnActivity, _, ?_, hstep _ (potential_added _ _ _ _ hok)⟩
    intro env _ _
    exact ⟨_, .species sp, rfl⟩
  | _ => exact absurd hcall (by simp [IsActivity])

/-! ## The theorems -/

/-- **C108 (activities), partial.** A call that asks for a pH, a pMg, an activity or a fugacity, and returns, is honoured by the state that is calculated,
whatever was called before and after: the activity of the species, if the system has it and its amount is not at a bound, is the one that was
asked for, up to the factor `exp (epsilon · logarithm_barrier_factor / amount)`. Missing: species at a bound, for which this is false
(`C108_bound_wrong`), and the factor (`C108_barrier_wrong`). -/
theorem C108_activity_partial (parse : Str → Option Formula) (db : List EquilibriumSpecs.Species) (before after : List (Call ℝ (Props ℝ)))
    (call : Call ℝ (Props ℝ)) (hcall : IsActivity call) (hok : (step parse (run parse db before) call).2 = true) (sys : System)
    (env : Env ℝ (Props ℝ)) (hlog : env.log = Real.log) (h10 : env.ln10 = Real.log 10) (w : List ℝ) (pr : Problem) (n q : List ℝ)
    (props : Props ℝ) (h : Calculated parse db (before ++ call :: after) sys env w pr n q props) :
    ∃ name sp f v, Asks parse db call name sp f ∧ valueOf (run parse db (before ++ call :: after)).inputs w name = some v ∧
      ∀ j, SameAs sys j sp.formula → Inside pr n j → env.G0 sp props.T props.P = some (props.G0.getD j 0) →
        props.ln_a.getD j 0 = f v + pr.eps * pr.factor / n.getD j 0 := by
  obtain ⟨name, sp, conv, idx, h1, h2⟩ := activity_constraint parse db before after call hcall hok
  obtain ⟨f, h3, h4⟩ := h1 env hlog h10
  obtain ⟨-, h5⟩ := potential_at h
  obtain ⟨k, fn, k1, -, k3, k4⟩ := h5 _ h2
  simp only [Option.some.injEq] at k3
  subst k3
  obtain ⟨v, u0, v1, v2, v3⟩ := k4
  refine ⟨name, sp, f, v, h3, v1, ?_⟩
  intro j hj hin hG
  have core := imposed_core h k _ k1 j hj hin
  obtain ⟨hT, hP, hu⟩ := potential_of_activity h.proper h.equilibrium.2.1
  have hjl : j < count pr.phases := by
    obtain ⟨x, hx, -⟩ := hj
    rw [← h.species]
    exact (List.getElem?_eq_some_iff.1 hx).1
  rw [hu j hjl] at core
  rw [h.temperature, h.pressure, hG, Option.some.injEq] at v2
  have v3 : pr.uq.getD k 0 = u0 + env.R * env.temperature props * f v := by
    rw [v3, ← h4]; cases conv <;> rfl
  rw [h.gas, h.temperature, hT, ← v2] at v3
  rw [v3] at core
  have hRT := h.nonzero
  have : pr.R * pr.T * (props.ln_a.getD j 0 - (f v + pr.eps * pr.factor / n.getD j 0)) = 0 := by linarith
  rcases mul_eq_zero.1 this with h0 | h0
  · exact absurd h0 hRT
  · linarith

/-- A reaction of species and one titrant. -/
theorem reaction_core {parse : Str → Option Formula} {db : List EquilibriumSpecs.Species} {calls : List (Call ℝ (Props ℝ))} {sys : System}
    {env : Env ℝ (Props ℝ)} {w : List ℝ} {pr : Problem} {n q : List ℝ} {props : Props ℝ}
    (h : Calculated parse db calls sys env w pr n q props) (k : Nat) (f : Formula)
    (hk : (run parse db calls).titrantsImplicit[k]? = some f) (ν : List Rat) (m : Rat) (hν : ν.length = sys.species.length)
    (hin : ∀ j < sys.species.length, ν.getD j 0 ≠ 0 → Inside pr n j)
    (hel : ∀ e ∈ sys.elements, ChemicalSystem.total (elementContent · e.symbol) sys.species ν + formulaContent f e.symbol * m = 0)
    (hch : ChemicalSystem.total (·.charge) sys.species ν + f.charge * m = 0) :
    ∑ j ∈ Finset.range sys.species.length, ((ν.getD j 0 : Rat) : ℝ) * props.u.getD j 0 =
      -(m * pr.uq.getD k 0) +
        pr.R * pr.T * (pr.eps * pr.factor) * ∑ j ∈ Finset.range sys.species.length, ((ν.getD j 0 : Rat) : ℝ) / n.getD j 0 := by
  obtain ⟨phases, hphases⟩ := h.system
  obtain ⟨huq, -⟩ := potential_at h
  obtain ⟨l1, -, -⟩ := u_length h.proper h.equilibrium
  have hkl : k < (run parse db calls).titrantsImplicit.length := (List.getElem?_eq_some_iff.1 hk).1
  have hnl : n.length = sys.species.length := by rw [h.species]; exact h.equilibrium.1.species
  have hql : q.length = (run parse db calls).titrantsImplicit.length := by rw [h.equilibrium.1.titrants, huq]
  have key := C55_mass_action phases sys hphases (run parse db calls) h.symbols h.formulas pr.A h.matrix pr.R pr.T pr.eps pr.factor h.nonzero n
    props.u pr.uq hnl (by rw [l1, h.species]) huq _ (stationary h.equilibrium h.free) ν
    (unit (run parse db calls).titrantsImplicit.length k m) hν (unit_length _ _ _)
    (by
      intro i hi
      by_cases hi1 : i < sys.species.length
      · rw [List.getD_append _ _ _ _ (by rw [hν]; exact hi1)] at hi
        exact ⟨by omega, fun _ => hin i hi1 hi⟩
      · rw [List.getD_append_right _ _ _ _ (by rw [hν]; omega), hν, unit_getD _ _ _ _ hkl] at hi
        by_cases hij : i - sys.species.length = k
        · exact ⟨by omega, fun h' => by omega⟩
        · rw [if_neg hij] at hi; exact absurd rfl hi)
    (by
      intro e he
      unfold titrants
      rw [zip_unit (fun f : Formula => formulaContent f e.symbol) _ _ _ _ hk]
      exact hel e he)
    (by
      unfold titrants
      rw [zip_unit (fun f : Formula => f.charge) _ _ _ _ hk]
      exact hch)
  have s2 : ∑ i ∈ Finset.range (run parse db calls).titrantsImplicit.length,
      (((unit (run parse db calls).titrantsImplicit.length k m).getD i 0 : Rat) : ℝ) * pr.uq.getD i 0 = m * pr.uq.getD k 0 := by
    rw [Finset.sum_eq_single k]
    · rw [unit_getD _ _ _ _ hkl, if_pos rfl]
    · intro i _ hij
      rw [unit_getD _ _ _ _ hkl, if_neg hij]; simp
    · intro h0; exact absurd (Finset.mem_range.2 hkl) h0
  rw [s2] at key
  linarith

theorem redox_constraint (parse : Str → Option Formula) (db : List EquilibriumSpecs.Species) (before after : List (Call ℝ (Props ℝ)))
    (call : Call ℝ (Props ℝ)) (hcall : call = .pE ∨ call = .Eh) (hok : (step parse (run parse db before) call).2 = true) :
    ∃ f, parse c!"e-" = some f ∧ ∃ idx,
      (⟨if call matches .pE then c!"pE" else c!"Eh", f, some (if call matches .pE then .pE idx else .Eh idx)⟩ : UConstraint ℝ (Props ℝ)) ∈
        (run parse db (before ++ call :: after)).uconstraints := by
  have hstep : ∀ c, c ∈ (step parse (run parse db before) call).1.uconstraints → c ∈ (run parse db (before ++ call :: after)).uconstraints := by
    intro c hc
    have : run parse db (before ++ call :: after) =
        after.foldl (fun s c => (step parse s c).1) (step parse (run parse db before) call).1 := by
      unfold run; rw [List.foldl_append, List.foldl_cons]
    rw [this]
    exact (fold_grows parse after _).1 c hc
  rcases hcall with rfl | rfl
  · simp only [step, pE] at hok hstep
    cases hp : parse c!"e-" with
    | none => rw [hp] at hok; exact absurd hok (by simp)
    | some f =>
      rw [hp] at hok hstep
      exact ⟨f, rfl, _, hstep _ (potential_added _ _ _ _ hok)⟩
  · simp only [step, Eh] at hok hstep
    cases hp : parse c!"e-" with
    | none => rw [hp] at hok; exact absurd hok (by simp)
    | some f =>
      rw [hp] at hok hstep
      exact ⟨f, rfl, _, hstep _ (potential_added _ _ _ _ hok)⟩

/-- **C108 (pE and Eh), partial.** If `pE` or `Eh` was called and returned, every half-reaction with `m` electrons, between species that are not at a
bound, satisfies the Nernst equation in the calculated state for the given value, up to the barrier term. -/
theorem C108_redox_partial (parse : Str → Option Formula) (db : List EquilibriumSpecs.Species) (before after : List (Call ℝ (Props ℝ)))
    (call : Call ℝ (Props ℝ)) (hcall : call = .pE ∨ call = .Eh) (hok : (step parse (run parse db before) call).2 = true) (sys : System)
    (env : Env ℝ (Props ℝ)) (h10 : env.ln10 = Real.log 10) (w : List ℝ) (pr : Problem) (n q : List ℝ)
    (props : Props ℝ) (h : Calculated parse db (before ++ call :: after) sys env w pr n q props) :
    ∃ electron v, parse c!"e-" = some electron ∧
      valueOf (run parse db (before ++ call :: after)).inputs w (if call matches .pE then c!"pE" else c!"Eh") = some v ∧
      ∀ (ν : List Rat) (m : Rat), ν.length = sys.species.length → (∀ j < sys.species.length, ν.getD j 0 ≠ 0 → Inside pr n j) →
        (∀ e ∈ sys.elements, ChemicalSystem.total (elementContent · e.symbol) sys.species ν + formulaContent electron e.symbol * m = 0) →
        ChemicalSystem.total (·.charge) sys.species ν + electron.charge * m = 0 →
        ∑ j ∈ Finset.range sys.species.length, ((ν.getD j 0 : Rat) : ℝ) * (props.G0.getD j 0 + pr.R * pr.T * props.ln_a.getD j 0) =
          m * (if call matches .pE then pr.R * pr.T * (v * Real.log 10) else env.F * v) +
          pr.R * pr.T * (pr.eps * pr.factor) * ∑ j ∈ Finset.range sys.species.length, ((ν.getD j 0 : Rat) : ℝ) / n.getD j 0 := by
  obtain ⟨f, hf, idx, h2⟩ := redox_constraint parse db before after call hcall hok
  obtain ⟨-, h5⟩ := potential_at h
  obtain ⟨k, fn, k1, -, k3, k4⟩ := h5 _ h2
  simp only [Option.some.injEq] at k3
  subst k3
  obtain ⟨hT, hP, hu⟩ := potential_of_activity h.proper h.equilibrium.2.1
  have hsum : ∀ ν : List Rat, ∑ j ∈ Finset.range sys.species.length, ((ν.getD j 0 : Rat) : ℝ) *
      (props.G0.getD j 0 + pr.R * pr.T * props.ln_a.getD j 0) = ∑ j ∈ Finset.range sys.species.length, ((ν.getD j 0 : Rat) : ℝ) * props.u.getD j 0 := by
    intro ν
    apply Finset.sum_congr rfl
    intro j hj
    rw [hu j (by rw [← h.species]; exact Finset.mem_range.1 hj)]
  rcases hcall with rfl | rfl
  · obtain ⟨v, v1, v2⟩ := k4
    refine ⟨f, v, hf, v1, ?_⟩
    intro ν m hν hin hel hch
    rw [hsum, reaction_core h k f k1 ν m hν hin hel hch, v2, h.gas, h.temperature, hT, h10]
    simp only [if_true]
    ring
  · obtain ⟨v, v1, v2⟩ := k4
    refine ⟨f, v, hf, v1, ?_⟩
    intro ν m hν hin hel hch
    rw [hsum, reaction_core h k f k1 ν m hν hin hel hch, v2]
    simp only [Bool.false_eq_true, if_false]
    ring

/-- **C108 (chemical potentials), partial.** The same for `chemicalPotential`. -/
theorem C108_potential_partial (parse : Str → Option Formula) (db : List EquilibriumSpecs.Species) (before after : List (Call ℝ (Props ℝ)))
    (substance : Str) (hok : (step parse (run parse db before) (.chemicalPotential substance)).2 = true) (sys : System)
    (env : Env ℝ (Props ℝ)) (w : List ℝ) (pr : Problem) (n q : List ℝ)
    (props : Props ℝ) (h : Calculated parse db (before ++ .chemicalPotential substance :: after) sys env w pr n q props) :
    ∃ f v, parse substance = some f ∧
      valueOf (run parse db (before ++ .chemicalPotential substance :: after)).inputs w (c!"u[" ++ substance ++ c!"]") = some v ∧
      ∀ j, SameAs sys j f → Inside pr n j → props.u.getD j 0 = v + pr.R * pr.T * (pr.eps * pr.factor / n.getD j 0) := by
  have hstep : ∀ c, c ∈ (step parse (run parse db before) (.chemicalPotential substance)).1.uconstraints →
      c ∈ (run parse db (before ++ .chemicalPotential substance :: after)).uconstraints := by
    intro c hc
    have : run parse db (before ++ .chemicalPotential substance :: after) =
        after.foldl (fun s c => (step parse s c).1) (step parse (run parse db before) (.chemicalPotential substance)).1 := by
      unfold run; rw [List.foldl_append, List.foldl_cons]
    rw [this]
    exact (fold_grows parse after _).1 c hc
  simp only [step, chemicalPotential] at hok hstep
  cases hp : parse substance with
  | none => rw [hp] at hok; exact absurd hok (by simp)
  | some f =>
    rw [hp] at hok hstep
    obtain ⟨-, h5⟩ := potential_at h
    obtain ⟨k, fn, k1, -, k3, k4⟩ := h5 _ (hstep _ (potential_added _ _ _ _ hok))
    simp only [Option.some.injEq] at k3
    subst k3
    refine ⟨f, _, rfl, k4, ?_⟩
    intro j hj hin
    exact imposed_core h k _ k1 j hj hin

/-! ## The hypotheses are satisfiable, and the missing cases -/

def proton : Formula := ⟨c!"H+", [(c!"H", 1)], 1⟩

def parseProton : Str → Option Formula := fun s => if s = c!"H+" then some proton else none

/-- A database with water and the hydrogen ion. -/
def database : List EquilibriumSpecs.Species :=
  [⟨c!"H2O(aq)", ⟨c!"H2O", [(c!"H", 2), (c!"O", 1)], 0⟩, .Aqueous⟩, ⟨c!"H+", proton, .Aqueous⟩]

/-- Given temperature, pressure and pH. -/
def acidCalls : List (Call ℝ (Props ℝ)) := [.temperature, .pressure, .pH]

def acidPhases : List Phases.Phase := [⟨c!"Aq", [H2O c!"H2O(aq)" .Aqueous, ⟨c!"H+", c!"H+", [(H, 1)], 1, .Aqueous, [], [], []⟩]⟩]

/-- A system with one phase, of water and the hydrogen ion. -/
def acidSystem : System :=
  ⟨fixPhaseNames acidPhases, fixSpeciesNames (collectSpecies acidPhases), [H, O], formulaMatrix (collectSpecies acidPhases) [H, O]⟩

theorem acidSystem_constructed : Constructs acidPhases acidSystem := by
  refine ⟨[H, O], ⟨?_, ?_⟩, rfl⟩
  · rw [show collectedElements (collectSpecies acidPhases) = [H, O] by decide +kernel]
  · simp [H, O]

/-- The constants of the program; all standard Gibbs energies are zero. -/
noncomputable def acidEnv : Env ℝ (Props ℝ) where
  R := Activity.gasConstant
  F := 96485
  ln10 := Real.log 10
  log := Real.log
  temperature := Props.T
  pressure := Props.P
  volume := fun _ => 0
  internalEnergy := fun _ => 0
  enthalpy := fun _ => 0
  gibbsEnergy := fun _ => 0
  helmholtzEnergy := fun _ => 0
  entropy := fun _ => 0
  G0 := fun _ _ _ => some 0

/-- The problem for an ideal solution with the default options, `nW` moles of water, `nH` moles of the ion and the given pH. -/
noncomputable def acid (nW nH v : ℝ) : Problem where
  phases := [phase [constant 0, constant 0] [solute c!"H2O(aq)", solute c!"H+"] Activity.idealSolution Activity.idealSolution]
  R := Activity.gasConstant
  T := 300
  P := 100000
  eps := 1 / 10 ^ 16
  factor := 1
  A := [[2, 1, 1], [1, 0, 0], [0, 1, 1]]
  b := [2 * nW + nH, nW, nH]
  lower := [some (1 / 10 ^ 16), some (1 / 10 ^ 16), none]
  upper := [none, none, none]
  uq := [Activity.gasConstant * 300 * (-v * Real.log 10)]

theorem acid_proper (nW nH v : ℝ) : Proper (acid nW nH v) := by
  refine { sizes := ?_, nonempty := ?_ }
  · intro ph h
    simp only [acid, List.mem_singleton] at h
    subst h
    exact ⟨(activityFn_ideal _ (Or.inl rfl) _).2.1, (activityFn_ideal _ (Or.inl rfl) _).2.1⟩
  · intro ph h
    simp only [acid, List.mem_singleton] at h
    subst h
    simp [phase, PhaseModel.size]

theorem gas_ne : Activity.gasConstant * 300 ≠ 0 := by norm_num [Activity.gasConstant]

theorem acid_props (nW nH v : ℝ) (hW : 0 < nW) (hH : 0 < nH) : ∃ props, Has (acid nW nH v) [nW, nH] props ∧
    props.u = [Activity.gasConstant * 300 * Real.log (nW / (nW + nH)), Activity.gasConstant * 300 * Real.log (nH / (nW + nH))] ∧
    props.G0 = [0, 0] ∧ props.ln_a.getD 1 0 = Real.log (nH / (nW + nH)) := by
  have hpos : ∀ y ∈ ([nW, nH] : List ℝ), 0 < y := by simp [hW, hH]
  have hr := acid_proper nW nH v
  obtain ⟨props, h⟩ := has_exists (acid nW nH v) hr [nW, nH] rfl hpos
    (by intro ph h f hf; simp only [acid, List.mem_singleton] at h; subst h; simp [phase] at hf; rcases hf with rfl | rfl <;> rfl)
    (by intro ph h; simp only [acid, List.mem_singleton] at h; subst h
        intro x a h1 h2 h3
        exact (activityFn_ideal _ (Or.inl rfl) _).2.2 _ _ x a h1 h2 h3)
  have hu := u_of_has (acid nW nH v) hr [nW, nH] rfl hpos props h (fun _ => [0, 0]) (fun _ x => x.map Real.log)
    (by intro i hi; have hi : i < 1 := hi; interval_cases i; rfl)
    (by intro i hi x old a h; have hi : i < 1 := hi; interval_cases i
        simp only [acid, phase, List.getElem_cons_zero] at h
        unfold activityFn at h
        simp only [Activity.idealSolution, Res.bind_ok'] at h
        split_ifs at h
        · simp at h
        · simp only [Prod.mk.injEq, and_true] at h
          rw [← h])
  have hfr : fractions (block (acid nW nH v) [nW, nH] 0) = [nW / (nW + nH), nH / (nW + nH)] := by
    simp [fractions, block, seg, acid, ChemicalProps.before, sizeAt, phase, PhaseModel.size]
  have hu : props.u = [Activity.gasConstant * 300 * Real.log (nW / (nW + nH)), Activity.gasConstant * 300 * Real.log (nH / (nW + nH))] := by
    rw [hu]
    simp only [acid, List.length_singleton, List.range_one, List.flatMap_cons, List.flatMap_nil] at hfr ⊢
    rw [hfr]
    simp
  have hG : props.G0 = [0, 0] := by
    have hs := props_shape (acid nW nH v) hr [nW, nH] props h
    obtain ⟨old, ho, hup⟩ := h
    obtain ⟨-, -, -, hc⟩ := C32_update _ _ hr.sizes hr.nonempty false old ho _ _ [nW, nH] props hup
    obtain ⟨-, -, -, e3, -⟩ := C32_blocks (acid nW nH v).phases props hs
    have hc := (hc 0 (by simp [acid])).standard
    have l1 := (view_sized (acid nW nH v).phases props hs 0 (by simp [acid])).G0
    have s0 := hc 0 (constant 0) rfl
    have s1 := hc 1 (constant 0) rfl
    obtain ⟨st, t1, t2, -⟩ := s0
    obtain ⟨st', t1', t2', -⟩ := s1
    simp only [constant, Option.some.injEq] at t1 t1'
    subst t1; subst t1'
    have e : props.G0 = (view (acid nW nH v).phases props 0).G0 := by
      rw [e3]; simp [acid]
    have l1 : (view (acid nW nH v).phases props 0).G0.length = 2 := l1
    rw [e]
    apply List.ext_getElem?
    intro i
    rcases i with _ | _ | i
    · exact t2
    · exact t2'
    · rw [List.getElem?_eq_none (by omega)]; simp
  refine ⟨props, h, hu, hG, ?_⟩
  have := (potential_of_activity hr h).2.2 1 (by simp [acid, count, phase, PhaseModel.size])
  rw [hu, hG] at this
  have this : Activity.gasConstant * 300 * Real.log (nH / (nW + nH)) = 0 + Activity.gasConstant * 300 * props.ln_a.getD 1 0 := this
  rw [zero_add] at this
  exact (mul_left_cancel₀ gas_ne this).symm

/-- The solution with these amounts is in equilibrium at the given pH if the activity of the ion is that of the pH and the barrier, or if it is larger
and the amount is at its lower bound. -/
theorem acid_calculated (nW nH v : ℝ) (hW : 1 / 10 ^ 16 ≤ nW) (hH : 1 / 10 ^ 16 ≤ nH)
    (hv : Real.log (nH / (nW + nH)) - 1 / 10 ^ 16 / nH + v * Real.log 10 = 0 ∨
      0 < Real.log (nH / (nW + nH)) - 1 / 10 ^ 16 / nH + v * Real.log 10 ∧ nH = 1 / 10 ^ 16) :
    ∃ props, Calculated parseProton database acidCalls acidSystem acidEnv [300, 100000, v] (acid nW nH v) [nW, nH] [0] props ∧
      props.G0 = [0, 0] ∧ props.ln_a.getD 1 0 = Real.log (nH / (nW + nH)) := by
  obtain ⟨props, h, hu, hG, ha⟩ := acid_props nW nH v (lt_of_lt_of_le (by norm_num) hW) (lt_of_lt_of_le (by norm_num) hH)
  obtain ⟨hT, hP, -⟩ := potential_of_activity (acid_proper nW nH v) h
  refine ⟨props, ?_, hG, ha⟩
  refine {
    system := ⟨acidPhases, acidSystem_constructed⟩
    symbols := ?_
    formulas := ?_
    species := ?_
    proper := acid_proper _ _ _
    matrix := ?_
    gas := rfl
    nonzero := gas_ne
    temperature := rfl
    pressure := rfl
    inputs := ?_
    potentials := ?_
    free := ?_
    equilibrium := ?_ }
  · decide +kernel
  · decide +kernel
  · show _ = 0 + 2
    decide +kernel
  · show _ = Res.ok [[2, 1, 1], [1, 0, 0], [0, 1, 1]]
    decide +kernel
  · rfl
  · show Res.ok [0 + Activity.gasConstant * props.T * (-v * Real.log 10)] = Res.ok [Activity.gasConstant * 300 * (-v * Real.log 10)]
    rw [hT, zero_add]; rfl
  · intro k hk
    have hk : 2 ≤ k := hk
    rcases k with _ | _ | _ | k
    · omega
    · omega
    · exact ⟨rfl, rfl⟩
    · simp [acid]
  · refine ⟨⟨rfl, rfl, ?_, ?_, ?_⟩, h, ?_⟩
    · intro i hi
      have hi : i < 3 := hi
      interval_cases i <;> simp [balance, acid, Finset.sum_range_succ]
    · intro j u hu
      rcases j with _ | _ | _ | j <;> simp [acid] at hu <;> subst hu
      · simpa using hW
      · simpa using hH
    · intro j u hu
      rcases j with _ | _ | _ | j <;> simp [acid] at hu
    · have hg : (acid nW nH v).gradient [nW, nH] props.u = [Real.log (nW / (nW + nH)) - 1 / 10 ^ 16 / nW,
          Real.log (nH / (nW + nH)) - 1 / 10 ^ 16 / nH, -v * Real.log 10] := by
        rw [hu]
        simp only [Problem.gradient, EquilibriumSetup.gradX, EquilibriumSetup.gradN, EquilibriumSetup.gradQ, acid,
          List.zipWith_cons_cons, List.zipWith_nil_left, List.map_cons, List.map_nil, List.cons_append, List.nil_append,
          mul_div_cancel_left₀ _ gas_ne, mul_one]
      refine ⟨fun i => if i = 1 then Real.log (nW / (nW + nH)) - 1 / 10 ^ 16 / nW else if i = 2 then -v * Real.log 10 else 0, ?_⟩
      intro j hj
      have hj : j < 3 := hj
      dsimp only
      rw [hg]
      have hs : ∀ j, ∑ i ∈ Finset.range (acid nW nH v).A.length,
          (if i = 1 then Real.log (nW / (nW + nH)) - 1 / 10 ^ 16 / nW else if i = 2 then -v * Real.log 10 else 0) *
            ((((acid nW nH v).A.getD i []).getD j 0 : Rat) : ℝ) =
          (Real.log (nW / (nW + nH)) - 1 / 10 ^ 16 / nW) * ((([1, 0, 0] : List Rat).getD j 0 : Rat) : ℝ) +
            -v * Real.log 10 * ((([0, 1, 1] : List Rat).getD j 0 : Rat) : ℝ) := by
        intro j
        simp [acid, Finset.sum_range_succ]
      rw [hs]
      interval_cases j
      · simp
      · simp only [List.getD_cons_succ, List.getD_cons_zero, Rat.cast_zero, mul_zero, Rat.cast_one, mul_one, zero_add]
        rw [show Real.log (nH / (nW + nH)) - 1 / 10 ^ 16 / nH - -v * Real.log 10 =
          Real.log (nH / (nW + nH)) - 1 / 10 ^ 16 / nH + v * Real.log 10 by ring]
        rcases hv with h0 | ⟨h0, h1⟩
        · rw [h0]; exact ⟨fun h => absurd h (lt_irrefl _), fun h => absurd h (lt_irrefl _)⟩
        · refine ⟨fun _ => ⟨1 / 10 ^ 16, rfl, ?_⟩, fun h => absurd (h0.trans h) (lt_irrefl _)⟩
          simp [h1]
      · simp

/-- The call returned, and the second species of the system is the ion. -/
theorem acid_call : (step parseProton (run parseProton database acidCalls.dropLast) (.pH : Call ℝ (Props ℝ))).2 = true ∧
    acidCalls = acidCalls.dropLast ++ .pH :: [] ∧ SameAs acidSystem 1 proton := by
  refine ⟨by decide +kernel, rfl, ?_⟩
  refine ⟨⟨c!"H+", c!"H+", [(H, 1)], 1, .Aqueous, [], [], []⟩, by decide +kernel, ?_, rfl⟩
  decide +kernel

/-- **C108 (fails).** With the default options the state does not have the pH that was asked for, but a smaller one: the difference is
`epsilon / (ln 10 · amount)`. Here 9 moles of water and 1 mole of the ion in an ideal solution, with the activity 1/10. -/
theorem C108_barrier_wrong : ∃ (v : ℝ) (props : Props ℝ),
    Calculated parseProton database acidCalls acidSystem acidEnv [300, 100000, v] (acid 9 1 v) [9, 1] [0] props ∧
    Inside (acid 9 1 v) [9, 1] 1 ∧ minusLg (props.ln_a.getD 1 0) = 1 ∧ v = 1 + 1 / 10 ^ 16 / Real.log 10 ∧ 1 < v := by
  have h10 : 0 < Real.log 10 := Real.log_pos (by norm_num)
  have hl : Real.log (1 / (9 + 1)) = - Real.log 10 := by
    rw [show (1 : ℝ) / (9 + 1) = 10⁻¹ by norm_num, Real.log_inv]
  obtain ⟨props, h, -, ha⟩ := acid_calculated 9 1 (1 + 1 / 10 ^ 16 / Real.log 10) (by norm_num) (by norm_num)
    (Or.inl (by rw [hl]; field_simp; ring))
  refine ⟨_, props, h, ?_, ?_, rfl, ?_⟩
  · intro u
    refine ⟨fun hu => ?_, fun hu => ?_⟩
    · simp [acid] at hu; subst hu; norm_num
    · simp [acid] at hu
  · rw [ha, hl, minusLg, neg_div, div_self h10.ne', neg_neg]
  · have : 0 < 1 / 10 ^ 16 / Real.log 10 := by positivity
    linarith

/-- The theorem on activities applied to this state. -/
example : ∃ (v : ℝ) (props : Props ℝ),
    Calculated parseProton database acidCalls acidSystem acidEnv [300, 100000, v] (acid 9 1 v) [9, 1] [0] props ∧
    props.ln_a.getD 1 0 = -(v * Real.log 10) + 1 / 10 ^ 16 := by
  obtain ⟨v, props, h, hin, -⟩ := C108_barrier_wrong
  obtain ⟨h1, h2, h3⟩ := acid_call
  have hG : props.G0.getD 1 0 = 0 := by
    have hr := acid_proper 9 1 v
    have := h.equilibrium.2.1
    have hs := props_shape (acid 9 1 v) hr [9, 1] props this
    obtain ⟨old, ho, hup⟩ := this
    obtain ⟨-, -, -, hc⟩ := C32_update _ _ hr.sizes hr.nonempty false old ho _ _ [9, 1] props hup
    obtain ⟨-, -, -, e3, -⟩ := C32_blocks (acid 9 1 v).phases props hs
    obtain ⟨st, t1, t2, -⟩ := (hc 0 (by simp [acid])).standard 1 (constant 0) rfl
    simp only [constant, Option.some.injEq] at t1
    subst t1
    have e : props.G0 = (view (acid 9 1 v).phases props 0).G0 := by
      rw [e3]; simp [acid]
    rw [e, List.getD_eq_getElem?_getD, t2]
    rfl
  rw [h2] at h
  obtain ⟨name, sp, f, v', a1, a2, a3⟩ := C108_activity_partial parseProton database _ [] .pH trivial h1 acidSystem acidEnv rfl rfl _ _ _ _ _ h
  cases a1 with
  | pH g sp p1 p2 p3 p4 =>
    have hv : some v = some v' := a2
    cases hv
    refine ⟨v, props, by rw [h2]; exact h, ?_⟩
    have hsp : sp.formula = proton := by
      simp only [parseProton, if_true, Option.some.injEq] at p1
      subst p1
      simp only [database, List.mem_cons, List.not_mem_nil, or_false] at p2
      rcases p2 with rfl | rfl
      · exact absurd p4 (by decide +kernel)
      · rfl
    have := a3 1 (by rw [hsp]; exact h3) hin (by rw [hG]; rfl)
    rw [this]
    simp [acid]

/-- **C108 (fails).** If the amount of the ion is at its lower bound, the pH that was asked for is not reached: one mole of water and the
ion, at pH 20 in an ideal solution, has the pH 16 in equilibrium. -/
theorem C108_bound_wrong : ∃ props : Props ℝ,
    Calculated parseProton database acidCalls acidSystem acidEnv [300, 100000, 20] (acid (1 - 1 / 10 ^ 16) (1 / 10 ^ 16) 20)
      [1 - 1 / 10 ^ 16, 1 / 10 ^ 16] [0] props ∧ minusLg (props.ln_a.getD 1 0) = 16 := by
  have h10 : 1 < Real.log 10 := by
    rw [Real.lt_log_iff_exp_lt (by norm_num)]
    have := Real.exp_one_lt_d9
    linarith
  have hl : Real.log (1 / 10 ^ 16 / (1 - 1 / 10 ^ 16 + 1 / 10 ^ 16)) = -(16 * Real.log 10) := by
    rw [show (1 : ℝ) / 10 ^ 16 / (1 - 1 / 10 ^ 16 + 1 / 10 ^ 16) = (10 ^ 16)⁻¹ by norm_num, Real.log_inv, Real.log_pow]
    norm_num
  obtain ⟨props, h, -, ha⟩ := acid_calculated (1 - 1 / 10 ^ 16) (1 / 10 ^ 16) 20 (by norm_num) (by norm_num)
    (Or.inr ⟨by rw [hl, div_self (by norm_num)]; linarith, rfl⟩)
  refine ⟨props, h, ?_⟩
  rw [ha, hl, minusLg, neg_div, neg_neg, mul_div_assoc, div_self (by linarith), mul_one]

/-- The same state, if the chemical potential of the ion is given instead of the pH. -/
example : ∃ (u : ℝ) (props : Props ℝ), u = Activity.gasConstant * 300 * (-(1 + 1 / 10 ^ 16 / Real.log 10) * Real.log 10) ∧
    props.u.getD 1 0 = u + Activity.gasConstant * 300 * (1 / 10 ^ 16) := by
  obtain ⟨v, props, h, hin, -, hv, -⟩ := C108_barrier_wrong
  obtain ⟨-, -, h3⟩ := acid_call
  have h' : Calculated parseProton database ([.temperature, .pressure] ++ .chemicalPotential c!"H+" :: []) acidSystem acidEnv
      [300, 100000, Activity.gasConstant * 300 * (-v * Real.log 10)] (acid 9 1 v) [9, 1] [0] props :=
    { system := h.system
      symbols := h.symbols
      formulas := by decide +kernel
      species := h.species
      proper := h.proper
      matrix := by
        show _ = Res.ok [[2, 1, 1], [1, 0, 0], [0, 1, 1]]
        decide +kernel
      gas := h.gas
      nonzero := h.nonzero
      temperature := rfl
      pressure := rfl
      inputs := rfl
      potentials := rfl
      free := h.free
      equilibrium := h.equilibrium }
  obtain ⟨f, u, h1, h2, h4⟩ := C108_potential_partial parseProton database [.temperature, .pressure] [] c!"H+" (by decide +kernel) acidSystem acidEnv
    _ _ _ _ _ h'
  have hf : proton = f := by simpa [parseProton] using h1
  subst hf
  have h2 : some (Activity.gasConstant * 300 * (-v * Real.log 10)) = some u := h2
  cases h2
  refine ⟨_, props, by rw [← hv], ?_⟩
  rw [h4 1 h3 hin]
  simp [acid]

/-! ### A redox example: two ions of iron -/

def electron : Formula := ⟨c!"e-", [], -1⟩

def parseElectron : Str → Option Formula := fun s => if s = c!"e-" then some electron else none

def Fe : Chem.Element := { H with symbol := c!"Fe" }

def ironPhases : List Phases.Phase :=
  [⟨c!"Aq", [⟨c!"Fe+2", c!"Fe+2", [(Fe, 1)], 2, .Aqueous, [], [], []⟩, ⟨c!"Fe+3", c!"Fe+3", [(Fe, 1)], 3, .Aqueous, [], [], []⟩]⟩]

/-- A system with one phase, of two ions of iron. -/
def ironSystem : System :=
  ⟨fixPhaseNames ironPhases, fixSpeciesNames (collectSpecies ironPhases), [Fe], formulaMatrix (collectSpecies ironPhases) [Fe]⟩

theorem ironSystem_constructed : Constructs ironPhases ironSystem := by
  refine ⟨[Fe], ⟨?_, ?_⟩, rfl⟩
  · rw [show collectedElements (collectSpecies ironPhases) = [Fe] by decide +kernel]
  · simp [Fe]

/-- Given temperature, pressure and pE. -/
def ironCalls : List (Call ℝ (Props ℝ)) := [.temperature, .pressure, .pE]

/-- The problem of one mole of Fe+2 and ten moles of Fe+3 in an ideal solution, at the given pE. -/
noncomputable def iron (v : ℝ) : Problem :=
  { acid 1 10 v with A := [[1, 1, 0], [2, 3, -1]], b := [11, 32] }

theorem iron_calculated : ∃ (v : ℝ) (props : Props ℝ), v = 1 + 9 / 10 ^ 17 / Real.log 10 ∧
    Calculated parseElectron [] ironCalls ironSystem acidEnv [300, 100000, v] (iron v) [1, 10] [0] props := by
  have h10 : 0 < Real.log 10 := Real.log_pos (by norm_num)
  obtain ⟨v, hv⟩ : ∃ v, 1 + 9 / 10 ^ 17 / Real.log 10 = v := ⟨_, rfl⟩
  obtain ⟨props, h, hu, hG, ha⟩ := acid_props 1 10 v (by norm_num) (by norm_num)
  obtain ⟨hT, hP, -⟩ := potential_of_activity (acid_proper 1 10 v) h
  refine ⟨v, props, hv.symm, ?_⟩
  refine {
    system := ⟨ironPhases, ironSystem_constructed⟩
    symbols := ?_
    formulas := ?_
    species := ?_
    proper := ⟨(acid_proper 1 10 v).sizes, (acid_proper 1 10 v).nonempty⟩
    matrix := ?_
    gas := rfl
    nonzero := gas_ne
    temperature := rfl
    pressure := rfl
    inputs := ?_
    potentials := ?_
    free := ?_
    equilibrium := ?_ }
  · decide +kernel
  · decide +kernel
  · show _ = 0 + 2
    decide +kernel
  · show _ = Res.ok [[1, 1, 0], [2, 3, -1]]
    decide +kernel
  · rfl
  · show Res.ok [0 + Activity.gasConstant * props.T * (-v * Real.log 10)] = Res.ok [Activity.gasConstant * 300 * (-v * Real.log 10)]
    rw [hT, zero_add]; rfl
  · intro k hk
    have hk : 2 ≤ k := hk
    rcases k with _ | _ | _ | k
    · omega
    · omega
    · exact ⟨rfl, rfl⟩
    · simp [iron, acid]
  · refine ⟨⟨rfl, rfl, ?_, ?_, ?_⟩, h, ?_⟩
    · intro i hi
      have hi : i < 2 := hi
      interval_cases i <;> simp [balance, iron, acid, Finset.sum_range_succ] <;> norm_num
    · intro j u hu
      rcases j with _ | _ | _ | j <;> simp [iron, acid] at hu <;> subst hu <;> norm_num
    · intro j u hu
      rcases j with _ | _ | _ | j <;> simp [iron, acid] at hu
    · have hg : (iron v).gradient [1, 10] props.u = [Real.log (1 / (1 + 10)) - 1 / 10 ^ 16 / 1,
          Real.log (10 / (1 + 10)) - 1 / 10 ^ 16 / 10, -v * Real.log 10] := by
        rw [hu]
        simp only [Problem.gradient, EquilibriumSetup.gradX, EquilibriumSetup.gradN, EquilibriumSetup.gradQ, iron, acid,
          List.zipWith_cons_cons, List.zipWith_nil_left, List.map_cons, List.map_nil, List.cons_append, List.nil_append,
          mul_div_cancel_left₀ _ gas_ne, mul_one]
      refine ⟨fun i => if i = 0 then Real.log (1 / (1 + 10)) - 1 / 10 ^ 16 - 2 * (v * Real.log 10) else v * Real.log 10, ?_⟩
      intro j hj
      have hj : j < 3 := hj
      dsimp only
      rw [hg]
      have hs : ∀ j, ∑ i ∈ Finset.range (iron v).A.length,
          (if i = 0 then Real.log (1 / (1 + 10)) - 1 / 10 ^ 16 - 2 * (v * Real.log 10) else v * Real.log 10) *
            ((((iron v).A.getD i []).getD j 0 : Rat) : ℝ) =
          (Real.log (1 / (1 + 10)) - 1 / 10 ^ 16 - 2 * (v * Real.log 10)) * ((([1, 1, 0] : List Rat).getD j 0 : Rat) : ℝ) +
            v * Real.log 10 * ((([2, 3, -1] : List Rat).getD j 0 : Rat) : ℝ) := by
        intro j
        simp [iron, acid, Finset.sum_range_succ]
      rw [hs]
      have e1 : Real.log (10 / (1 + 10)) = Real.log (1 / (1 + 10)) + Real.log 10 := by
        rw [← Real.log_mul (by norm_num) (by norm_num)]; norm_num
      have e2 : v * Real.log 10 = Real.log 10 + 9 / 10 ^ 17 := by
        rw [← hv]; field_simp
      interval_cases j
      · have : Real.log (1 / (1 + 10)) - 1 / 10 ^ 16 / 1 - ((Real.log (1 / (1 + 10)) - 1 / 10 ^ 16 - 2 * (v * Real.log 10)) * 1 +
            v * Real.log 10 * 2) = (0 : ℝ) := by ring
        simp only [List.getD_cons_zero, Rat.cast_one, Rat.cast_ofNat]
        rw [this]
        exact ⟨fun h => absurd h (lt_irrefl _), fun h => absurd h (lt_irrefl _)⟩
      · have : Real.log (10 / (1 + 10)) - 1 / 10 ^ 16 / 10 - ((Real.log (1 / (1 + 10)) - 1 / 10 ^ 16 - 2 * (v * Real.log 10)) * 1 +
            v * Real.log 10 * 3) = (0 : ℝ) := by rw [e1, e2]; ring
        simp only [List.getD_cons_zero, List.getD_cons_succ, Rat.cast_one, Rat.cast_ofNat]
        rw [this]
        exact ⟨fun h => absurd h (lt_irrefl _), fun h => absurd h (lt_irrefl _)⟩
      · simp

/-- The reduction of Fe+3 to Fe+2: the theorem gives pE = lg (a(Fe+3) / a(Fe+2)), up to the barrier. -/
example : ∃ (v : ℝ) (props : Props ℝ),
    Calculated parseElectron [] ironCalls ironSystem acidEnv [300, 100000, v] (iron v) [1, 10] [0] props ∧
    props.G0.getD 1 0 + Activity.gasConstant * 300 * props.ln_a.getD 1 0 - (props.G0.getD 0 0 + Activity.gasConstant * 300 * props.ln_a.getD 0 0) =
      Activity.gasConstant * 300 * (v * Real.log 10) - Activity.gasConstant * 300 * (9 / 10 ^ 17) := by
  obtain ⟨v, props, -, h⟩ := iron_calculated
  refine ⟨v, props, h, ?_⟩
  have e : ironCalls = ironCalls.dropLast ++ .pE :: [] := rfl
  rw [e] at h
  obtain ⟨el, v', h1, h2, h3⟩ := C108_redox_partial parseElectron [] _ [] .pE (Or.inl rfl) (by decide +kernel) ironSystem acidEnv rfl _ _ _ _ _ h
  have hel : electron = el := by simpa [parseElectron] using h1
  subst hel
  have h2 : some v = some v' := h2
  cases h2
  have := h3 [-1, 1] 1 (by decide +kernel) (by
    intro j hj _ u
    have hj : j < 2 := hj
    refine ⟨fun hu => ?_, fun hu => ?_⟩
    · interval_cases j <;> simp [iron, acid] at hu <;> subst hu <;> norm_num
    · interval_cases j <;> simp [iron, acid] at hu) (by decide +kernel) (by decide +kernel)
  rw [show ironSystem.species.length = 2 by decide +kernel] at this
  simp only [Finset.sum_range_succ, Finset.sum_range_zero, List.getD_cons_zero, List.getD_cons_succ, Rat.cast_neg, Rat.cast_one, if_true] at this
  simp only [iron, acid] at this
  linear_combination this

end Verif.Imposed
