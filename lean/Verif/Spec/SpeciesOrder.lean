import Verif.Spec.ActivityModels
import Verif.Model.Pitzer
import Verif.Model.FluidModels
import Verif.Model.ActivityCubicEOS
import Verif.Spec.PhaseOrder

/-!
# Specification for C112
-/

namespace Verif.SpeciesOrder

open Activity Aqueous ChemicalProps

/-- A list read in another order: entry `k` is the entry of `l` at the place `order[k]`. -/
def reorder {α : Type} (order : List Nat) (l : List α) : List α := order.filterMap (l[·]?)

/-- An order for `n` things. -/
def IsOrder (order : List Nat) (n : Nat) : Prop := order.Perm (List.range n)

/-- At most one of the species has the formula. -/
def AtMostOne (species : List (Species ℝ)) (f : Formula) : Prop := species.countP (fun s => f.equivalent s.formula) ≤ 1

/-- The properties of the same phase with its species in another order. -/
def reorderProps (order : List Nat) (p : AProps ℝ) : AProps ℝ := { p with ln_g := reorder order p.ln_g, ln_a := reorder order p.ln_a }

/-- The activity model gives each species the same activity coefficient and activity, and the phase the same excess properties, in whatever order
the species are given, when nothing has been evaluated before. -/
def OrderFree (model : Model) (species : List (Species ℝ)) : Prop :=
  ∀ order, IsOrder order species.length → ∀ f, model species = .ok f → ∃ f', model (reorder order species) = .ok f' ∧
    ∀ (T P : ℝ) (x : List ℝ) (p : AProps ℝ), x.length = species.length → p.ln_g.length = species.length → p.ln_a.length = species.length →
      ∀ m, f T P x ⟨p, none, {}⟩ = .ok m →
        ∃ m', f' T P (reorder order x) ⟨reorderProps order p, none, {}⟩ = .ok m' ∧ m'.props = reorderProps order m.props

/-- The formulas the model of Rumpf et al. looks up among the ions. -/
def rumpfFormulas : List Formula := [naPlus, kPlus, caPlus, mgPlus, clMinus]

/-- The formulas the model of Duan and Sun looks up among the ions. -/
def duanFormulas : List Formula := [naPlus, kPlus, caPlus, mgPlus, clMinus, so4Minus]

/-- The activity models that look up species by their formulas, or none, each with these formulas. -/
inductive Listed : Model → List Formula → Prop
  | idealSolution : Listed idealSolution []
  | idealGas : Listed idealGas []
  | idealAqueous : Listed idealAqueous [waterFormula]
  | debyeHuckel (reactions : List Registries.Reaction) (rho0 eps0 : ℝ) (p : DHParams) : Listed (debyeHuckel reactions rho0 eps0 p) [waterFormula]
  | hkf (reactions : List Registries.Reaction) (rho0 eps0 : ℝ) (p : HKFParams) : Listed (hkf reactions rho0 eps0 p) [waterFormula]
  | pitzer (reactions : List Registries.Reaction) (rho0 eps0 : ℝ) : Listed (Pitzer.pitzer reactions rho0 eps0) [waterFormula]
  | setschenow (neutral : Formula) (b : ℝ) : Listed (setschenow neutral b) [neutral]
  | drummond (gas : Formula) (p : DrummondParams) : Listed (drummond gas p) [gas]
  | rumpf (gas : Formula) : Listed (rumpf gas) (gas :: rumpfFormulas)
  | duanSun (gas : Formula) : Listed (duanSun gas) (gas :: duanFormulas)
  | spycherReed : Listed spycherReed [waterFormula, co2Formula, ch4Formula]
  | spycherPruessEnnis (eps : ℝ) : Listed (spycherPruessEnnis eps) [waterFormula, co2Formula]
  | chain (models : List (Model × List Formula)) (h : ∀ q ∈ models, Listed q.1 q.2) : Listed (Activity.chain (models.map (·.1))) (models.flatMap (·.2))

/-! ## Cubic equations of state -/

section Cubic

variable {m n : Nat}

/-- The list `species'` holds the species of `species` in another order: its entry `k` is entry `σ k` of `species`. -/
def SameSpecies {α : Type} (species species' : List α) (σ : Fin species'.length ≃ Fin species.length) : Prop := ∀ k, species'.get k = species.get (σ k)

/-- The interaction parameters of the same species in another order. -/
def relabelIp (σ : Fin m ≃ Fin n) (ip : CubicEOS.Ip n) : CubicEOS.Ip m where
  k := ip.k.map fun f i j => f (σ i) (σ j)
  kT := ip.kT.map fun f i j => f (σ i) (σ j)
  kTT := ip.kTT.map fun f i j => f (σ i) (σ j)

/-- The results of the equation of state with the species in another order. -/
def relabelProps (σ : Fin m ≃ Fin n) (p : CubicEOS.Props n) : CubicEOS.Props m := { p with ln_phi := p.ln_phi ∘ σ }

/-- The activity properties with the species in another order. -/
def relabelActivity (σ : Fin m ≃ Fin n) (p : ActivityCubicEOS.Activity n) : ActivityCubicEOS.Activity m := { p with ln_g := p.ln_g ∘ σ, ln_a := p.ln_a ∘ σ }

end Cubic

/-! ## Phases -/

/-- The properties of a phase with its species in another order. -/
def reorderData (order : List Nat) (d : PhaseData ℝ) : PhaseData ℝ :=
  { d with
    n := reorder order d.n
    x := reorder order d.x
    G0 := reorder order d.G0
    H0 := reorder order d.H0
    V0 := reorder order d.V0
    Cp0 := reorder order d.Cp0
    Cv0 := reorder order d.Cv0
    ln_g := reorder order d.ln_g
    ln_a := reorder order d.ln_a
    u := reorder order d.u }

/-- The activity function of a phase, in a new process: an exception leaves the properties as they were. -/
def asActivity (f : Fn) : ℝ → ℝ → List ℝ → AProps ℝ → AProps ℝ × Bool := fun T P x p =>
  match f T P x ⟨p, none, {}⟩ with
  | .ok m => (m.props, true)
  | _ => (p, false)

/-- The two functions give the same activities for `n` species in two orders. -/
def SameActivity (order : List Nat) (n : Nat) (f f' : ℝ → ℝ → List ℝ → AProps ℝ → AProps ℝ × Bool) : Prop :=
  ∀ T P x p, x.length = n → p.ln_g.length = n → p.ln_a.length = n → ∀ r, f T P x p = (r, true) →
    f' T P (reorder order x) (reorderProps order p) = (reorderProps order r, true)

/-- The same phase with its species in another order. -/
structure SamePhase (order : List Nat) (ph ph' : PhaseModel ℝ) : Prop where
  isOrder : IsOrder order ph.size
  species : ph'.species = reorder order ph.species
  activity : SameActivity order ph.size ph.activity ph'.activity
  ideal : SameActivity order ph.size ph.ideal ph'.ideal
  masses : ph'.molarMasses = reorder order ph.molarMasses

/-- The same phase of an equilibrium problem with its species, their columns, bounds and amounts in another order. -/
structure SamePart (order : List Nat) (a a' : PhaseOrder.Part) : Prop where
  phase : SamePhase order a.model a'.model
  species : a'.species = reorder order a.species

end Verif.SpeciesOrder
