import Verif.Model.Database
import Verif.Model.NumberText
import Verif.Model.Strings
import Verif.Model.Supcrt

/-!
# Model of `Reaktoro/Extensions/Supcrt/SupcrtDatabase.cpp`

The XML library is external: a document is a tree of tags and texts, and the functions that read numbers from a text
are parameters that may depend on the numeric locale of the process.  The embedded files, the files on disk and the XML
parser are parameters too.  The locale is the mutable state of the process.
-/

namespace Verif.SupcrtDb

open Chem Database

abbrev Str := List Char

/-- An XML element: its tag, the text directly inside it if there is one, and the elements inside it. -/
inductive Xml where
  | mk (tag : Str) (text : Option Str) (children : List Xml)

def Xml.tag : Xml → Str | .mk t _ _ => t
def Xml.text : Xml → Option Str | .mk _ t _ => t
def Xml.children : Xml → List Xml | .mk _ _ c => c

/-- `xml_node::child`: the first child with the given tag; a child of the null node is null. -/
def child (node : Option Xml) (name : Str) : Option Xml := node.bind fun n => n.children.find? fun c => c.tag = name

/-- `xml_node::text`: empty for the null node. -/
def textOf (node : Option Xml) : Option Str := node.bind Xml.text

/-- The functions that read numbers: `xml_text::as_double`, `xml_text::as_int` and `std::atof`. -/
structure Reader where
  asDouble : Str → Rat
  asInt : Str → Int
  atof : Str → Rat

/-- `as_int`, `SupcrtDatabase.cpp:72-77`. -/
def asInt (rd : Reader) (node : Option Xml) (name : Str) (ifEmpty : Int := 999999) : Int :=
  match textOf (child node name) with
  | none => ifEmpty
  | some t => rd.asInt t

/-- `as_double`, `SupcrtDatabase.cpp:80-85`. -/
def asDouble (rd : Reader) (node : Option Xml) (name : Str) (ifEmpty : Rat := 999999) : Rat :=
  match textOf (child node name) with
  | none => ifEmpty
  | some t => rd.asDouble t

/-- `as_text`, `SupcrtDatabase.cpp:88-93`. -/
def asText (node : Option Xml) (name : Str) : Str :=
  match textOf (child node name) with
  | none => c!"999999"
  | some t => t

/-- `as_lowercase_text`, `SupcrtDatabase.cpp:96-99`, `StringUtils.hpp:88-92`. -/
def asLowercaseText (node : Option Xml) (name : Str) : Str := (asText node name).map Char.toLower

/-- `SupcrtParamsAqueousSoluteHKF`, `SupcrtParams.hpp:31-68`. -/
structure SoluteData where
  name : Str
  charge : Rat
  Gf : Rat
  Hf : Rat
  Sr : Rat
  a1 : Rat
  a2 : Rat
  a3 : Rat
  a4 : Rat
  c1 : Rat
  c2 : Rat
  wref : Rat
  deriving DecidableEq

/-- `SupcrtParamsMaierKelly`, `SupcrtParams.hpp:71-96`. -/
structure GasData where
  name : Str
  Gf : Rat
  Hf : Rat
  Sr : Rat
  a : Rat
  b : Rat
  c : Rat
  Tmax : Rat
  deriving DecidableEq

/-- `SupcrtParamsMaierKellyHKF`, `SupcrtParams.hpp:99-142`. -/
structure MineralData where
  name : Str
  Gf : Rat
  Hf : Rat
  Sr : Rat
  Vr : Rat
  nptrans : Nat
  Tmax : Rat
  a : List Rat := []
  b : List Rat := []
  c : List Rat := []
  Ttr : List Rat := []
  Htr : List Rat := []
  Vtr : List Rat := []
  dPdTtr : List Rat := []
  deriving DecidableEq

/-- The parameters attached to a species. -/
inductive Data where
  | solvent
  | solute (d : SoluteData)
  | gas (d : GasData)
  | mineral (d : MineralData)
  deriving DecidableEq

/-- `node.child("Thermo").child("HKF")`, `SupcrtDatabase.cpp:116,139,159`. -/
def hkfNode (node : Option Xml) : Option Xml := child (child node c!"Thermo") c!"HKF"

/-- `parseParamsAqueousSoluteHKF`, `SupcrtDatabase.cpp:108-129`. -/
def parseSolute (rd : Reader) (node : Option Xml) : SoluteData :=
  let hkf := hkfNode node
  { name := asText node c!"Name"
    charge := asDouble rd node c!"Charge"
    Gf := asDouble rd hkf c!"Gf"
    Hf := asDouble rd hkf c!"Hf"
    Sr := asDouble rd hkf c!"Sr"
    a1 := asDouble rd hkf c!"a1"
    a2 := asDouble rd hkf c!"a2"
    a3 := asDouble rd hkf c!"a3"
    a4 := asDouble rd hkf c!"a4"
    c1 := asDouble rd hkf c!"c1"
    c2 := asDouble rd hkf c!"c2"
    wref := asDouble rd hkf c!"wref" }

/-- `parseParamsMaierKelly`, `SupcrtDatabase.cpp:132-150`. -/
def parseGas (rd : Reader) (node : Option Xml) : GasData :=
  let hkf := hkfNode node
  { name := asText node c!"Name"
    Gf := asDouble rd hkf c!"Gf"
    Hf := asDouble rd hkf c!"Hf"
    Sr := asDouble rd hkf c!"Sr"
    a := asDouble rd hkf c!"a"
    b := asDouble rd hkf c!"b"
    c := asDouble rd hkf c!"c"
    Tmax := asDouble rd hkf c!"Tmax" }

/-- `str << "TemperatureRange" << i`, `SupcrtDatabase.cpp:178-179`. -/
def rangeTag (i : Nat) : Str := c!"TemperatureRange" ++ Nat.toDigits 10 i

/-- One turn of the loop of `SupcrtDatabase.cpp:176-196`. -/
def parseRange (rd : Reader) (hkf : Option Xml) (d : MineralData) (i : Nat) : MineralData :=
  let range := child hkf (rangeTag i)
  let d := { d with
    a := d.a ++ [asDouble rd range c!"a"]
    b := d.b ++ [asDouble rd range c!"b"]
    c := d.c ++ [asDouble rd range c!"c"] }
  if i < d.nptrans then
    { d with
      Ttr := d.Ttr ++ [asDouble rd range c!"Ttr"]
      Htr := d.Htr ++ [asDouble rd range c!"Htr" 0]
      Vtr := d.Vtr ++ [asDouble rd range c!"Vtr" 0]
      dPdTtr := d.dPdTtr ++ [asDouble rd range c!"dPdTtr" 0] }
  else d

/-- `parseParamsMaierKellyHKF`, `SupcrtDatabase.cpp:153-200`.  A negative number of transitions is converted to a
huge unsigned number and the loop runs until the memory or the range of its `int` index is exhausted, which is
undefined here. -/
def parseMineral (rd : Reader) (node : Option Xml) : Res MineralData :=
  let hkf := hkfNode node
  let n := asInt rd hkf c!"NumPhaseTrans"
  if n < 0 then .ub
  else
    let d : MineralData :=
      { name := asText node c!"Name"
        Gf := asDouble rd hkf c!"Gf"
        Hf := asDouble rd hkf c!"Hf"
        Sr := asDouble rd hkf c!"Sr"
        Vr := asDouble rd hkf c!"Vr"
        nptrans := n.toNat
        Tmax := asDouble rd hkf c!"Tmax" }
    if d.nptrans = 0 then
      .ok { d with
        a := [asDouble rd hkf c!"a"]
        b := [asDouble rd hkf c!"b"]
        c := [asDouble rd hkf c!"c"] }
    else .ok ((List.range (d.nptrans + 1)).foldl (parseRange rd hkf) d)

/-- `parseParams` and `parseStandardThermoModel`, `SupcrtDatabase.cpp:203-212,237-246`: the same choice is made for the
attached parameters and for the parameters of the standard model. -/
def parseParams (rd : Reader) (node : Option Xml) : Res Data :=
  let formula := asText node c!"Formula"
  let type := asLowercaseText node c!"Type"
  if type = c!"aqueous" ∧ formula = c!"H2O" then .ok .solvent
  else if type = c!"aqueous" then .ok (.solute (parseSolute rd node))
  else if type = c!"gaseous" then .ok (.gas (parseGas rd node))
  else if type = c!"mineral" then (parseMineral rd node).bind fun d => .ok (.mineral d)
  else .ok (.gas (parseGas rd node))

/-- The loop of `parseElements`, `SupcrtDatabase.cpp:220-221`: reading past the end of the words is undefined. -/
def pairUp (rd : Reader) : List Str → Res (List (Str × Rat))
  | [] => .ok []
  | [_] => .ub
  | symbol :: coeff :: rest => (pairUp rd rest).bind fun l => .ok ((symbol, rd.atof coeff) :: l)

/-- `parseElements`, `SupcrtDatabase.cpp:215-223`. -/
def parseElements (rd : Reader) (node : Option Xml) : Res (List (Str × Rat)) :=
  pairUp rd (Strings.split (asText node c!"Elements") c!"()")

/-- `ElementalComposition(Pairs<String, double>)`, `ElementalComposition.cpp:52-57`, with `Element(symbol)`
(`Element.cpp:29-38,78-80`); `elementOf` is `Elements::withSymbol`. -/
def composition (elementOf : Str → Option Element) : List (Str × Rat) → Res (List (Element × Rat))
  | [] => .ok []
  | (symbol, coeff) :: rest =>
    match elementOf symbol with
    | none => .throw
    | some e => (composition elementOf rest).bind fun l => .ok ((e, coeff) :: l)

/-- `parseAggregateState`, `SupcrtDatabase.cpp:226-234`. -/
def parseAggregateState (node : Option Xml) : State :=
  let type := asLowercaseText node c!"Type"
  if type = c!"aqueous" then .Aqueous
  else if type = c!"gaseous" then .Gas
  else if type = c!"liquid" then .Liquid
  else if type = c!"mineral" then .Solid
  else .Undefined

/-- `parseSpecies`, `SupcrtDatabase.cpp:248-259`. -/
def parseSpecies (rd : Reader) (elementOf : Str → Option Element) (node : Option Xml) : Res (Species × Data) :=
  (parseElements rd node).bind fun pairs =>
  (composition elementOf pairs).bind fun elements =>
  (parseParams rd node).bind fun data =>
  .ok ({ rawName := asText node c!"Name", formula := asText node c!"Formula", elements := elements,
         charge := asDouble rd node c!"Charge" 0, rawState := parseAggregateState node }, data)

/-- The loop of `parseDatabase`, `SupcrtDatabase.cpp:266-267`: the database and, for each of its species in order, the
parameters of the standard model. -/
def addNodes (rd : Reader) (elementOf : Str → Option Element) : Db × List Data → List Xml → Res (Db × List Data)
  | s, [] => .ok s
  | s, node :: nodes =>
    (parseSpecies rd elementOf (some node)).bind fun p =>
    (addSpecies s.1 p.1).bind fun db =>
    addNodes rd elementOf (db, s.2 ++ [p.2]) nodes

/-- `doc.child("Database").children("Species")`. -/
def speciesNodes (doc : Xml) : List Xml :=
  match child (some doc) c!"Database" with
  | none => []
  | some d => d.children.filter fun c => c.tag = c!"Species"

/-- `parseDatabase`, `SupcrtDatabase.cpp:261-270`. -/
def parseDatabase (rd : Reader) (elementOf : Str → Option Element) (doc : Xml) : Res (Db × List Data) :=
  addNodes rd elementOf ({}, []) (speciesNodes doc)

/-- What is outside: the numeric functions in each locale, the registry of elements, the embedded files, the files on
disk after parsing, and the XML parser; `none` is a failure. -/
structure Env where
  reader : Str → Reader
  elementOf : Str → Option Element
  resource : Str → Option Str
  file : Str → Option Xml
  parse : Str → Option Xml

/-- The names accepted by `getSupcrtDatabaseContent`, `SupcrtDatabase.cpp:275-279`. -/
def embeddedNames : List Str :=
  [c!"supcrt98.xml", c!"supcrt07.xml", c!"supcrt98-organics.xml", c!"supcrt07-organics.xml"]

/-- `getSupcrtDatabaseContent`, `SupcrtDatabase.cpp:273-290`. -/
def content (env : Env) (name : Str) : Res Str :=
  if name ∉ embeddedNames then .throw
  else match env.resource (c!"databases/supcrt/" ++ name) with
    | none => .throw
    | some t => .ok t

/-- A scope with a `ChangeLocale` object, `SupcrtDatabase.cpp:296-309`: the constructor stores the name of the current
locale and changes it, the destructor, which runs on every exit, sets the stored one. -/
def changeLocale {α : Type} (new : Str) (body : Str → Str × Res α) (locale : Str) : Str × Res α :=
  let old := locale
  let r := body new
  (old, r.2)

/-- `SupcrtDatabase::withName`, `SupcrtDatabase.cpp:318-341`, run in a process with the given numeric locale; the
locale afterwards is returned too. -/
def withName (env : Env) (name : Str) : Str → Str × Res (Db × List Data) :=
  changeLocale c!"C" fun locale =>
    (locale, (content env name).bind fun text =>
      if text = [] then .throw
      else match env.parse text with
        | none => .throw
        | some doc => parseDatabase (env.reader locale) env.elementOf doc)

/-- `SupcrtDatabase::fromFile`, `SupcrtDatabase.cpp:343-358`. -/
def fromFile (env : Env) (path : Str) : Str → Str × Res (Db × List Data) :=
  changeLocale c!"C" fun locale =>
    (locale, match env.file path with
      | none => .throw
      | some doc => parseDatabase (env.reader locale) env.elementOf doc)

/-- What a program does with the locale and the databases. -/
inductive Op where
  | setLocale (l : Str)
  | withName (name : Str)
  | fromFile (path : Str)

/-- A program, continued after exceptions; the locale after each step and the result of each loading. -/
def run (env : Env) : Str → List Op → List (Str × Option (Res (Db × List Data)))
  | _, [] => []
  | _, .setLocale l :: ops => (l, none) :: run env l ops
  | locale, .withName name :: ops =>
    let r := withName env name locale
    (r.1, some r.2) :: run env r.1 ops
  | locale, .fromFile path :: ops =>
    let r := fromFile env path locale
    (r.1, some r.2) :: run env r.1 ops

/-! ### The standard model of a loaded species -/

/-- The parameters as real numbers. -/
noncomputable def Data.params : Data → Supcrt.Params
  | .solvent => .solvent
  | .solute d => .solute ⟨d.name, d.charge, d.Gf, d.Hf, d.Sr, d.a1, d.a2, d.a3, d.a4, d.c1, d.c2, d.wref⟩
  | .gas d => .gas ⟨d.name, d.Gf, d.Hf, d.Sr, d.a, d.b, d.c, d.Tmax⟩
  | .mineral d => .mineral
    ⟨d.name, d.Gf, d.Hf, d.Sr, d.Vr, d.nptrans, d.a.map (fun x : ℚ => (x : ℝ)), d.b.map (fun x : ℚ => (x : ℝ)),
      d.c.map (fun x : ℚ => (x : ℝ)), d.Ttr.map (fun x : ℚ => (x : ℝ)), d.Htr.map (fun x : ℚ => (x : ℝ)),
      d.Vtr.map (fun x : ℚ => (x : ℝ)), d.dPdTtr.map (fun x : ℚ => (x : ℝ)), d.Tmax⟩

/-- The standard model of a loaded species, `SupcrtDatabase.cpp:46-68`. -/
noncomputable def Data.props (water : ℝ × ℝ → Res Water.ThermoState) (d : Data) (T P : ℝ) : Res StandardModels.Props :=
  Supcrt.props water d.params T P

end Verif.SupcrtDb
