import Verif.Model.EquilibriumSpecs

/-!
# Specification for C35, C36 and C37
-/

namespace Verif.EquilibriumSpecs

variable {K Pr : Type}

/-- The constraint reads the input that the documentation names for it. -/
def WiredE (inputs : List Str) : EFn K Pr → Prop
  | .volume idx => inputs[idx]? = some c!"V"
  | .internalEnergy idx => inputs[idx]? = some c!"U"
  | .enthalpy idx => inputs[idx]? = some c!"H"
  | .gibbsEnergy idx => inputs[idx]? = some c!"G"
  | .helmholtzEnergy idx => inputs[idx]? = some c!"A"
  | .entropy idx => inputs[idx]? = some c!"S"
  | .custom _ => True

/-- The chemical potential constraint with that name and substance reads the input with the same name. -/
def WiredU (inputs : List Str) (name : Str) (substance : Formula) : UFn K Pr → Prop
  | .value idx => inputs[idx]? = some name
  | .activity species _ idx => inputs[idx]? = some name ∧ substance = species.formula
  | .pE idx => inputs[idx]? = some name ∧ name = c!"pE"
  | .Eh idx => inputs[idx]? = some name ∧ name = c!"Eh"
  | .custom _ => True

/-- What holds of a specification at any time. -/
structure Consistent (s : Specs K Pr) : Prop where
  /-- input names are distinct -/
  inputs : s.inputs.Nodup
  /-- no explicit titrant is equivalent to a later one -/
  titrantsExplicit : s.titrantsExplicit.Pairwise fun f g => f.equivalent g = false
  /-- no implicit titrant is equivalent to a later one -/
  titrantsImplicit : s.titrantsImplicit.Pairwise fun f g => f.equivalent g = false
  /-- no explicit titrant is also an implicit one -/
  titrants : ∀ f ∈ s.titrantsExplicit, ∀ g ∈ s.titrantsImplicit, ¬ (f.equivalent g = true ∧ g.equivalent f = true)
  /-- there is one chemical potential constraint for each implicit titrant -/
  potentials : s.uconstraints.map (·.substance) = s.titrantsImplicit
  /-- constraints of each kind have distinct names -/
  econstraints : (s.econstraints.map (·.name)).Nodup
  uconstraints : (s.uconstraints.map (·.name)).Nodup
  /-- constraints have a function and read their own input -/
  efunctions : ∀ c ∈ s.econstraints, ∃ fn, c.fn = some fn ∧ WiredE s.inputs fn
  ufunctions : ∀ c ∈ s.uconstraints, ∃ fn, c.fn = some fn ∧ WiredU s.inputs c.name c.substance fn
  /-- parameters are inputs, under their identifiers -/
  params : List.Forall₂ (fun (p : Par) (i : Nat) => s.inputs[i]? = some p.id) s.params s.paramsIdxs
  /-- at distinct positions -/
  paramsIdxs : s.paramsIdxs.Nodup
  /-- temperature and pressure are inputs unless they are unknown -/
  temperature : s.unknownT = false → c!"T" ∈ s.inputs
  pressure : s.unknownP = false → c!"P" ∈ s.inputs

/-- The value of an input. -/
def valueOf (inputs : List Str) (w : List K) (name : Str) : Option K := (inputs.zip w).lookup name

/-- `r` is the residual of an equation constraint. -/
def ResidualE [Sub K] (env : Env K Pr) (props : Pr) (inputs : List Str) (w : List K) (r : K) : EFn K Pr → Prop
  | .volume _ => ∃ v, valueOf inputs w c!"V" = some v ∧ r = env.volume props - v
  | .internalEnergy _ => ∃ v, valueOf inputs w c!"U" = some v ∧ r = env.internalEnergy props - v
  | .enthalpy _ => ∃ v, valueOf inputs w c!"H" = some v ∧ r = env.enthalpy props - v
  | .gibbsEnergy _ => ∃ v, valueOf inputs w c!"G" = some v ∧ r = env.gibbsEnergy props - v
  | .helmholtzEnergy _ => ∃ v, valueOf inputs w c!"A" = some v ∧ r = env.helmholtzEnergy props - v
  | .entropy _ => ∃ v, valueOf inputs w c!"S" = some v ∧ r = env.entropy props - v
  | .custom fn => fn props w = .ok r

/-- `r` is the chemical potential imposed by a constraint with that name on its substance. -/
def PotentialU [Add K] [Mul K] [Neg K] (env : Env K Pr) (props : Pr) (inputs : List Str) (w : List K) (name : Str) (r : K) : UFn K Pr → Prop
  | .value _ => valueOf inputs w name = some r
  | .activity species conv _ => ∃ v u0, valueOf inputs w name = some v ∧
      env.G0 species (env.temperature props) (env.pressure props) = some u0 ∧
      r = u0 + env.R * env.temperature props * (match conv with
        | .lnActivity => v
        | .fugacity => env.log v
        | .minusLg => -v * env.ln10)
  | .pE _ => ∃ v, valueOf inputs w c!"pE" = some v ∧ r = env.R * env.temperature props * (-v * env.ln10)
  | .Eh _ => ∃ v, valueOf inputs w c!"Eh" = some v ∧ r = -env.F * v
  | .custom fn => fn props w = .ok r

end Verif.EquilibriumSpecs
