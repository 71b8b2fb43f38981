import Verif.GenRs
import Verif.Parser

/-!
# `make_pluralrules/src/lib.rs` and `resource.rs`

`serde_json` (resource.rs:33-36) is a dependency; a parsed file is given as its fields, with each JSON object as the list of its
members in file order.
-/

namespace Verif.Generate
open Verif Rust GenPr GenRs

/-- `BTreeMap::insert`, as `serde_json` calls it for each member of an object: the map is a list sorted by key, and a
repeated key replaces the value. -/
def insertKey (k : Str) (v : α) : List (Str × α) → List (Str × α)
  | [] => [(k, v)]
  | (k', v') :: r =>
    match LangId.cmpStr k k' with
    | .lt => (k, v) :: (k', v') :: r
    | .eq => (k, v) :: r
    | .gt => (k', v') :: insertKey k v r

/-- `BTreeMap<String, α>` of the members of a JSON object (resource.rs:27,29). -/
def btree (members : List (Str × α)) : List (Str × α) :=
  members.foldl (fun m p => insertKey p.1 p.2 m) []

/-- The rules of one locale in file order: key (`pluralRule-count-one`) and text. -/
abbrev RuleObj := List (Str × Str)

/-- One plural type of a file in file order: locale and its rules. -/
abbrev TypeObj := List (Str × RuleObj)

/-- resource.rs:9-30 (`Resource`, `Supplemental`, `Version`), the fields that are used: make_pluralrules/src/lib.rs:29,37,45. -/
structure Resource where
  cldrVersion : Str
  cardinal : Option TypeObj
  ordinal : Option TypeObj
  deriving DecidableEq, Repr

/-- `rule_name.split('-')`, make_pluralrules/src/lib.rs:89. -/
def splitDash : Str → List Str
  | [] => [[]]
  | c :: t =>
    if c == '-' then [] :: splitDash t
    else match splitDash t with
      | h :: r => (c :: h) :: r
      | [] => [[c]]

/-- make_pluralrules/src/lib.rs:95-107. -/
def categoryOfName (name : Str) : PluralCategory :=
  if name = c!"zero" then .ZERO
  else if name = c!"one" then .ONE
  else if name = c!"two" then .TWO
  else if name = c!"few" then .FEW
  else if name = c!"many" then .MANY
  else .OTHER

/-- make_pluralrules/src/lib.rs:87-114, the body of the loop over the rules of a locale: `none` is a panic (a key with
fewer than three parts at :89, a text that does not parse at :93, or a panic of the generator), and `some none` is an OTHER
rule, which is parsed and then left out. -/
def genRule (rule : Str × Str) : Option (Option (PluralCategory × List Tok)) :=
  match (splitDash rule.1)[2]? with
  | none => none
  | some catName =>
    match Parser.parsePluralCondition Parser.usizeBits rule.2 with
    | .error _ => none
    | .ok representation =>
      let cat := categoryOfName catName
      if cat ≠ .OTHER then (genPr representation).map fun tokens => some (cat, tokens) else some none

/-- make_pluralrules/src/lib.rs:85-114: the rules of a locale, in the order of the `BTreeMap`. -/
def genLocaleRules (r : List (Str × Str)) : Option (List (PluralCategory × List Tok)) :=
  (mapPanic genRule r).map (·.filterMap id)

/-- Insertion in identifier order; `sort_unstable_by` at make_pluralrules/src/lib.rs:81.  The order of entries with equal
identifiers is unspecified there; the model keeps the order of insertion. -/
def insertById (x : LangId × α) : List (LangId × α) → List (LangId × α)
  | [] => [x]
  | y :: r =>
    match LangId.cmp x.1 y.1 with
    | .gt => y :: insertById x r
    | _ => x :: y :: r

/-- `sort_unstable_by(|a, b| a.0.cmp(&b.0))`. -/
def sortById (l : List (LangId × α)) : List (LangId × α) := l.foldr insertById []

/-- make_pluralrules/src/lib.rs:66-78: every key but `root`, parsed; `none` is the panic at :74. -/
def parseKeys (parseId : Str → Option LangId) (rules : List (Str × α)) : Option (List (LangId × α)) :=
  mapPanic (fun p => (parseId p.1).map fun id => (id, p.2)) (rules.filter fun p => !(p.1 == c!"root"))

/-- make_pluralrules/src/lib.rs:62-119 (`gen_type_rs`), before the tokens of an entry are put together: identifier and
rules of each entry. -/
def genTypeEntries (parseId : Str → Option LangId) (obj : TypeObj) :
    Option (List (LangId × List (PluralCategory × List Tok))) :=
  match parseKeys parseId (btree (obj.map fun p => (p.1, btree p.2))) with
  | none => none
  | some rules => mapPanic (fun p => (genLocaleRules p.2).map fun s => (p.1, s)) (sortById rules)

/-- make_pluralrules/src/lib.rs:62-119 (`gen_type_rs`). -/
def genTypeRs (parseId : Str → Option LangId) (obj : TypeObj) : Option (List (List Tok)) :=
  (genTypeEntries parseId obj).map (·.map fun p => genMid p.1 p.2)

/-- The state of the loop of `generate_rs`: make_pluralrules/src/lib.rs:22-23. -/
structure GenState where
  version : Option Str
  cardinal : Option (List (List Tok))
  ordinal : Option (List (List Tok))
  deriving DecidableEq, Repr

/-- One optional plural type: make_pluralrules/src/lib.rs:37-43 and :45-51; generate first, then the check that the type
is new. -/
def addType (parseId : Str → Option LangId) (old : Option (List (List Tok))) :
    Option TypeObj → Option (Option (List (List Tok)))
  | none => some old
  | some data =>
    match genTypeRs parseId data with
    | none => none
    | some toks => if old.isSome then none else some (some toks)

/-- make_pluralrules/src/lib.rs:25-52, one input file. -/
def genStep (parseId : Str → Option LangId) (s : GenState) (r : Resource) : Option GenState :=
  if s.version.isSome && s.version != some r.cldrVersion then none
  else
    match addType parseId s.cardinal r.cardinal with
    | none => none
    | some c =>
      match addType parseId s.ordinal r.ordinal with
      | none => none
      | some o => some { version := some r.cldrVersion, cardinal := c, ordinal := o }

/-- make_pluralrules/src/lib.rs:25-52, all input files. -/
def genLoop (parseId : Str → Option LangId) : GenState → List Resource → Option GenState
  | s, [] => some s
  | s, r :: rest =>
    match genStep parseId s r with
    | none => none
    | some s' => genLoop parseId s' rest

/-- make_pluralrules/src/lib.rs:21-60 (`generate_rs`) up to `to_string`, on parsed files; `none` is a panic. -/
def generateTokens (parseId : Str → Option LangId) (rs : List Resource) : Option (List Tok) :=
  match genLoop parseId { version := none, cardinal := none, ordinal := none } rs with
  | none => none
  | some s =>
    match s.version with
    | none => none
    | some v =>
      if s.cardinal.isNone && s.ordinal.isNone then none
      else
        genFn ((s.cardinal.toList.map fun t => (RuleType.cardinal, t)) ++
          (s.ordinal.toList.map fun t => (RuleType.ordinal, t))) v

/-- make_pluralrules/src/lib.rs:21-60 (`generate_rs`) on parsed files. -/
def generateRs (parseId : Str → Option LangId) (rs : List Resource) : Option Str :=
  (generateTokens parseId rs).map render

end Verif.Generate
