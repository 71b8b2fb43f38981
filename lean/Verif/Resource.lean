import Verif.Json
import Verif.Generate

/-!
# `make_pluralrules/src/parser/resource.rs`

What the derived `Deserialize` implementations (serde, a dependency) make of a JSON value, and
`parse_plurals_resource_from_string`.  Every kind of error is `none`: the caller unwraps (make_pluralrules/src/lib.rs:27).
-/

namespace Verif.Resource
open Verif Json Generate

/-- `String`. -/
def asString : Json → Option Str
  | .str (some s) => some s
  | _ => none

/-- `Option<T>`: `null`, or a `T`. -/
def asOption (f : Json → Option α) : Json → Option (Option α)
  | .null => some none
  | j => (f j).map some

/-- One member of a map: key and value both have to be readable. -/
def asMember (f : Json → Option α) (m : Option Str × Json) : Option (Str × α) :=
  match m.1, f m.2 with
  | some k, some v => some (k, v)
  | _, _ => none

/-- The members of an object.  The `BTreeMap` made of them is `Generate.btree`. -/
def asMembers (f : Json → Option α) : Json → Option (List (Str × α))
  | .obj l => GenPr.mapPanic (asMember f) l
  | _ => none

/-- The values of the members with a given key. -/
def valuesOf (name : Str) (l : List (Option Str × Json)) : List Json :=
  l.filterMap fun m => if m.1 = some name then some m.2 else none

/-- The fields of a struct, by name, in the order of declaration.  From an object: a name that occurs twice is an error,
and so is an unreadable key; other members are ignored.  From an array: as many values as there are fields.  A field that
is not given is `none`. -/
def structFields (names : List Str) : Json → Option (List (Option Json))
  | .obj l =>
    if l.any (fun m => m.1.isNone) then none
    else if names.any (fun n => 2 ≤ (valuesOf n l).length) then none
    else some (names.map fun n => (valuesOf n l).head?)
  | .arr l => if l.length = names.length then some (l.map some) else none
  | _ => none

/-- A field without which there is an error. -/
def required (f : Json → Option α) : Option Json → Option α
  | none => none
  | some j => f j

/-- A field of an `Option` type. -/
def optional (f : Json → Option α) : Option Json → Option (Option α)
  | none => some none
  | some j => asOption f j

/-- resource.rs:13-21 (`Version`). -/
structure Version where
  number : Option Str
  unicodeVersion : Str
  cldrVersion : Str
  deriving DecidableEq, Repr

/-- resource.rs:13-21. -/
def asVersion (j : Json) : Option Version :=
  match structFields [c!"_number", c!"_unicodeVersion", c!"_cldrVersion"] j with
  | some [n, u, c] =>
    match optional asString n, required asString u, required asString c with
    | some n, some u, some c => some { number := n, unicodeVersion := u, cldrVersion := c }
    | _, _, _ => none
  | _ => none

/-- `BTreeMap<String, BTreeMap<String, String>>`, as the members in file order. -/
def asTypeObj : Json → Option TypeObj := asMembers (asMembers asString)

/-- resource.rs:23-30 (`Supplemental`), with the fields that are used. -/
def asSupplemental (j : Json) : Option Generate.Resource :=
  match structFields [c!"version", c!"plurals-type-cardinal", c!"plurals-type-ordinal"] j with
  | some [v, c, o] =>
    match required asVersion v, optional asTypeObj c, optional asTypeObj o with
    | some v, some c, some o => some { cldrVersion := v.cldrVersion, cardinal := c, ordinal := o }
    | _, _, _ => none
  | _ => none

/-- resource.rs:8-11 (`Resource`). -/
def asResource (j : Json) : Option Generate.Resource :=
  match structFields [c!"supplemental"] j with
  | some [s] => required asSupplemental s
  | _ => none

/-- resource.rs:33-36 (`parse_plurals_resource_from_string`). -/
def parseResource (body : Str) : Option Generate.Resource :=
  match Json.parse body with
  | none => none
  | some j => asResource j

/-- make_pluralrules/src/lib.rs:21-60 (`generate_rs`), from texts to text.  The code reads a text at :27 just before it
uses it; since every failure is a panic, reading all texts first gives the same outcome. -/
def generateText (parseId : Str → Option LangId) (texts : List Str) : Option Str :=
  match GenPr.mapPanic parseResource texts with
  | none => none
  | some rs => generateRs parseId rs

end Verif.Resource
