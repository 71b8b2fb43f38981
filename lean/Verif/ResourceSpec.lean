import Verif.JsonSpec
import Verif.Resource
import Mathlib.Data.List.Forall2

/-!
# Specification of input files

Which JSON values are `Resource`s (make_pluralrules/src/parser/resource.rs), said without computing anything.
-/

namespace Verif.ResourceSpec
open Verif Json Generate JsonSpec

/-- A readable string. -/
def IsStr (j : Json) (s : Str) : Prop := j = .str (some s)

/-- An object that is used as a map: every key is readable and every value is as it should be. -/
def IsMap (P : Json → α → Prop) (j : Json) (l : List (Str × α)) : Prop :=
  ∃ ms, j = .obj ms ∧ List.Forall₂ (fun m p => m.1 = some p.1 ∧ P m.2 p.2) ms l

/-- `null` or a value. -/
def OrNull (P : Json → α → Prop) (j : Json) : Option α → Prop
  | none => j = .null
  | some a => P j a

/-- The member with this key, if there is one; there are not two. -/
def Member (ms : List (Option Str × Json)) (name : Str) : Option Json → Prop
  | none => ∀ m ∈ ms, m.1 ≠ some name
  | some v => ∃ a b, ms = a ++ (some name, v) :: b ∧ ∀ m ∈ a ++ b, m.1 ≠ some name

/-- The fields of a struct: an object with readable keys in which no field is given twice, or an array with a value for
every field. -/
def IsStruct (names : List Str) (j : Json) (vals : List (Option Json)) : Prop :=
  (∃ ms, j = .obj ms ∧ (∀ m ∈ ms, m.1 ≠ none) ∧ List.Forall₂ (Member ms) names vals) ∨
  ∃ l, j = .arr l ∧ l.length = names.length ∧ vals = l.map some

/-- A field of an optional type may be missing or `null`. -/
def OptField (P : Json → α → Prop) (v : Option Json) (a : Option α) : Prop :=
  (v = none ∧ a = none) ∨ ∃ j, v = some j ∧ OrNull P j a

/-- `version`: the number is optional and not used, the Unicode version has to be there and is not used. -/
def IsVersion (j : Json) (cldr : Str) : Prop :=
  ∃ n u c num uni, IsStruct [c!"_number", c!"_unicodeVersion", c!"_cldrVersion"] j [n, some u, some c] ∧
    OptField IsStr n num ∧ IsStr u uni ∧ IsStr c cldr

/-- The rules of a plural type: an object of objects of strings. -/
def IsType : Json → TypeObj → Prop := IsMap (IsMap IsStr)

/-- `supplemental`. -/
def IsSupplemental (j : Json) (r : Generate.Resource) : Prop :=
  ∃ v c o, IsStruct [c!"version", c!"plurals-type-cardinal", c!"plurals-type-ordinal"] j [some v, c, o] ∧
    IsVersion v r.cldrVersion ∧ OptField IsType c r.cardinal ∧ OptField IsType o r.ordinal

/-- A file. -/
def IsResource (j : Json) (r : Generate.Resource) : Prop := ∃ s, IsStruct [c!"supplemental"] j [some s] ∧ IsSupplemental s r

/-- A text that says a resource. -/
def ResourceText (s : Str) (r : Generate.Resource) : Prop := ∃ j, IsText s j ∧ IsResource j r

end Verif.ResourceSpec
