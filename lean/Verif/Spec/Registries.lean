import Verif.Model.Registries

/-!
# Specification for the registries (C54)
-/

namespace Verif.Registries

/-- Two formulas denote the same substance: the same elements with the same coefficients, and the same charge. -/
def SameFormula (f g : Formula) : Prop := f.charge = g.charge ∧ ∀ x, x ∈ f.elements ↔ x ∈ g.elements

/-- No element is listed twice. -/
def ElementsOnce (f : Formula) : Prop := (f.elements.map (·.1)).Nodup

/-- The ions a complex is said to dissociate into by the default table: those of its first entry. -/
inductive DefaultIons (f : Formula) : List Reaction → Option (List (Rat × Formula)) → Prop where
  | none : DefaultIons f [] none
  | here (r : Reaction) (rest) : SameFormula r.complex f → DefaultIons f (r :: rest) (some r.ions)
  | there (r : Reaction) (rest o) : ¬ SameFormula r.complex f → DefaultIons f rest o → DefaultIons f (r :: rest) o

/-- The ions last registered for a complex by a history of calls, latest call first. -/
inductive LastIons (d0 : List Reaction) (f : Formula) : List DOp → Option (List (Rat × Formula)) → Prop where
  | start (o) : DefaultIons f d0 o → LastIons d0 f [] o
  | reset (older o) : DefaultIons f d0 o → LastIons d0 f (.reset :: older) o
  | this (r : Reaction) (older) : SameFormula r.complex f → LastIons d0 f (.append r :: older) (some r.ions)
  | other (r : Reaction) (older o) : ¬ SameFormula r.complex f → LastIons d0 f older o →
      LastIons d0 f (.append r :: older) o

/-- Elements and charge are conserved by a dissociation reaction. -/
def Balanced (r : Reaction) : Prop :=
  r.complex.charge = (r.ions.map fun p => p.1 * p.2.charge).sum ∧
  ∀ s, coefficientIn r.complex.elements s = (r.ions.map fun p => p.1 * coefficientIn p.2.elements s).sum

/-- Two substances have a name in common. -/
def Clash (s t : Substance) : Prop := ∃ n, n ∈ s.names ∧ n ∈ t.names

/-- No two entries have a name in common. -/
def NoClash (l : List Substance) : Prop := l.Pairwise fun s t => ¬ Clash s t

/-- A registry seen through the names: what each name resolves to. -/
abbrev Names := Str → Option Substance

open Classical in
/-- Registering a substance in place of those it clashes with: its names resolve to it, the other names of the substances it
replaces no longer resolve, and nothing else changes. -/
noncomputable def replaceIn (m : Names) (s : Substance) : Names := fun n =>
  if n ∈ s.names then some s
  else match m n with
    | some t => if Clash s t then none else some t
    | none => none

open Classical in
/-- Registering a new substance: rejected if one of its names is taken. -/
noncomputable def addIn (m : Names) (s : Substance) : Names :=
  if ∃ n ∈ s.names, (m n).isSome then m else fun n => if n ∈ s.names then some s else m n

/-- The effect of a call, through the names. -/
noncomputable def stepNames (m : Names) : COp → Names
  | .append s => addIn m s
  | .overwrite s => replaceIn m s

/-- The substance given to a call clashes with at most one entry (only required of `overwrite`). -/
def ClashesAtMostOnce (l : List Substance) : COp → Prop
  | .append _ => True
  | .overwrite s => ∀ i j (hi : i < l.length) (hj : j < l.length), Clash s l[i] → Clash s l[j] → i = j

/-- Every call of a history clashes with at most one entry of the registry it meets. -/
def TameHistory : List Substance → List COp → Prop
  | _, [] => True
  | l, op :: ops => ClashesAtMostOnce l op ∧ TameHistory (stepC l op) ops

end Verif.Registries
