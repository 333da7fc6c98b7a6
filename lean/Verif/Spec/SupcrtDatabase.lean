import Verif.Model.SupcrtDatabase
import Verif.Spec.Database

/-!
# Specification of SUPCRT database files

What an entry of a database file says, written without the functions that read it.
-/

namespace Verif.SupcrtDb

open Chem

/-- The entries of a document: the children called `Species`, in order, of its first child called `Database`. -/
def Entries (doc : Xml) (nodes : List Xml) : Prop :=
  (∃ first d rest, doc.children = first ++ d :: rest ∧ (∀ c ∈ first, c.tag ≠ c!"Database") ∧ d.tag = c!"Database" ∧
    nodes = d.children.filter (fun c => c.tag = c!"Species")) ∨
  (∀ c ∈ doc.children, c.tag ≠ c!"Database") ∧ nodes = []

/-- The text found by following a path of tags, at each step to the first element with the tag. -/
def textAt : Xml → List Str → Option Str
  | n, [] => n.text
  | n, t :: path =>
    match n.children.find? fun c => c.tag = t with
    | none => none
    | some c => textAt c path

/-- The number found at a path. -/
def numberAt (rd : Reader) (n : Xml) (path : List Str) : Option Rat := (textAt n path).map rd.asDouble

/-- The path of a parameter. -/
def hkf (t : Str) : List Str := [c!"Thermo", c!"HKF", t]

/-- The path of a parameter of the `i`-th range of temperatures of a mineral. -/
def inRange (i : Nat) (t : Str) : List Str := [c!"Thermo", c!"HKF", c!"TemperatureRange" ++ Nat.toDigits 10 i, t]

/-- A composition as it is written: `Si(1)O(2)`. -/
def compositionText : List (Str × Str) → Str
  | [] => []
  | p :: l => p.1 ++ '(' :: (p.2 ++ ')' :: compositionText l)

/-- A word of a composition. -/
def Plain (w : Str) : Prop := w ≠ [] ∧ '(' ∉ w ∧ ')' ∉ w

/-- All parameters of a solute are given in the entry. -/
structure SoluteGiven (rd : Reader) (n : Xml) (d : SoluteData) : Prop where
  charge : numberAt rd n [c!"Charge"] = some d.charge
  Gf : numberAt rd n (hkf c!"Gf") = some d.Gf
  Hf : numberAt rd n (hkf c!"Hf") = some d.Hf
  Sr : numberAt rd n (hkf c!"Sr") = some d.Sr
  a1 : numberAt rd n (hkf c!"a1") = some d.a1
  a2 : numberAt rd n (hkf c!"a2") = some d.a2
  a3 : numberAt rd n (hkf c!"a3") = some d.a3
  a4 : numberAt rd n (hkf c!"a4") = some d.a4
  c1 : numberAt rd n (hkf c!"c1") = some d.c1
  c2 : numberAt rd n (hkf c!"c2") = some d.c2
  wref : numberAt rd n (hkf c!"wref") = some d.wref

/-- All parameters of a gas or liquid are given in the entry. -/
structure GasGiven (rd : Reader) (n : Xml) (d : GasData) : Prop where
  Gf : numberAt rd n (hkf c!"Gf") = some d.Gf
  Hf : numberAt rd n (hkf c!"Hf") = some d.Hf
  Sr : numberAt rd n (hkf c!"Sr") = some d.Sr
  a : numberAt rd n (hkf c!"a") = some d.a
  b : numberAt rd n (hkf c!"b") = some d.b
  c : numberAt rd n (hkf c!"c") = some d.c
  Tmax : numberAt rd n (hkf c!"Tmax") = some d.Tmax

/-- All parameters of a mineral are given in the entry; the changes at transitions may be missing and are then zero. -/
structure MineralGiven (rd : Reader) (n : Xml) (d : MineralData) : Prop where
  Gf : numberAt rd n (hkf c!"Gf") = some d.Gf
  Hf : numberAt rd n (hkf c!"Hf") = some d.Hf
  Sr : numberAt rd n (hkf c!"Sr") = some d.Sr
  Vr : numberAt rd n (hkf c!"Vr") = some d.Vr
  Tmax : numberAt rd n (hkf c!"Tmax") = some d.Tmax
  nptrans : (textAt n (hkf c!"NumPhaseTrans")).map rd.asInt = some (d.nptrans : Int)
  lengths : d.a.length = d.nptrans + 1 ∧ d.b.length = d.nptrans + 1 ∧ d.c.length = d.nptrans + 1 ∧
    d.Ttr.length = d.nptrans ∧ d.Htr.length = d.nptrans ∧ d.Vtr.length = d.nptrans ∧ d.dPdTtr.length = d.nptrans
  single : d.nptrans = 0 → numberAt rd n (hkf c!"a") = d.a[0]? ∧ numberAt rd n (hkf c!"b") = d.b[0]? ∧
    numberAt rd n (hkf c!"c") = d.c[0]?
  ranges : d.nptrans ≠ 0 → ∀ (i : Nat), i ≤ d.nptrans →
    numberAt rd n (inRange i c!"a") = d.a[i]? ∧
    numberAt rd n (inRange i c!"b") = d.b[i]? ∧
    numberAt rd n (inRange i c!"c") = d.c[i]?
  transitions : ∀ (i : Nat), i < d.nptrans →
    numberAt rd n (inRange i c!"Ttr") = d.Ttr[i]? ∧
    some ((numberAt rd n (inRange i c!"Htr")).getD 0) = d.Htr[i]? ∧
    some ((numberAt rd n (inRange i c!"Vtr")).getD 0) = d.Vtr[i]? ∧
    some ((numberAt rd n (inRange i c!"dPdTtr")).getD 0) = d.dPdTtr[i]?

/-- The kind of the species and its parameters. -/
def KindGiven (rd : Reader) (n : Xml) (s : Species) (type : Str) : Data → Prop
  | .solvent => type = c!"aqueous" ∧ s.formula = c!"H2O" ∧ s.rawState = .Aqueous
  | .solute d => type = c!"aqueous" ∧ s.formula ≠ c!"H2O" ∧ s.rawState = .Aqueous ∧ d.name = s.rawName ∧ SoluteGiven rd n d
  | .gas d => (type = c!"gaseous" ∧ s.rawState = .Gas ∨ type = c!"liquid" ∧ s.rawState = .Liquid) ∧
      d.name = s.rawName ∧ GasGiven rd n d
  | .mineral d => type = c!"mineral" ∧ s.rawState = .Solid ∧ d.name = s.rawName ∧ MineralGiven rd n d

/-- The entry describes the species and its parameters, and nothing is missing. -/
structure Describes (rd : Reader) (elementOf : Str → Option Element) (n : Xml) (s : Species) (d : Data) : Prop where
  name : textAt n [c!"Name"] = some s.rawName
  formula : textAt n [c!"Formula"] = some s.formula
  elements : ∃ l : List (Str × Str), textAt n [c!"Elements"] = some (compositionText l) ∧
    (∀ p ∈ l, Plain p.1 ∧ Plain p.2) ∧
    List.Forall₂ (fun p q => elementOf p.1 = some q.1 ∧ rd.atof p.2 = q.2) l s.elements
  charge : s.charge = (numberAt rd n [c!"Charge"]).getD 0
  kind : ∃ type, textAt n [c!"Type"] = some type ∧ KindGiven rd n s (type.map Char.toLower) d
  rest : s.tags = [] ∧ s.reactants = [] ∧ s.rawSubstance = []

end Verif.SupcrtDb
